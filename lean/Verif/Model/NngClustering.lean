/-
Model of src/nng_clustering.c: `scc_sc_clustering`.
-/
import Verif.Model.Batches

namespace Scc

variable {F : Type} [FloatOps F]

/-- The radius of an assignment stage, src/nng_clustering.c:153-176: none when points are ignored, the seed radius when asked for. -/
def resolveRadius (o : Options F) (um : UnassignedMethod) (m : RadiusMethod) (r : F) : RadiusMethod × F :=
  if um = .ignore then (.noRadius, FloatOps.zero)
  else if m = .useSeedRadius then (o.seedRadius, o.seedSupplied)
  else (m, r)

/-- Replacing an estimated radius, src/nng_clustering.c:190-209. `none` means that the radius is infeasible. -/
def useEstimate (avg : F) (r : RadiusMethod × F) : Option (RadiusMethod × F) :=
  if r.1 = .useEstimated then
    if FloatOps.lt FloatOps.zero avg then some (.useSupplied, avg) else none
  else some r

/-- The radii of both stages, src/nng_clustering.c:178-210. On failure the seeds are freed. -/
def estimateRadii (spi : Spi F) (sr : SeedResult) (nng : Digraph) (S : Nat) (r1 r2 : RadiusMethod × F) :
    M (Except ErrorCode ((RadiusMethod × F) × (RadiusMethod × F))) := do
  if r1.1 = .useEstimated ∨ r2.1 = .useEstimated then do
    match ← estimateAvg spi sr nng S with
    | .error ec => do
      freePtr sr.seeds
      pure (.error ec)
    | .ok avg =>
      match useEstimate avg r1 with
      | none => do
        freePtr sr.seeds
        fail .noSolution "src/nng_clustering.c" 197 (some "Infeasible radius constraint.")
      | some r1 =>
        match useEstimate avg r2 with
        | none => do
          freePtr sr.seeds
          fail .noSolution "src/nng_clustering.c" 207 (some "Infeasible radius constraint.")
        | some r2 => pure (.ok (r1, r2))
  else pure (.ok (r1, r2))

/-- `iscc_make_clustering_from_nng`, src/nng_clustering.c:131-241. The results are the error code, the clustering and the digraph, which may have been freed. -/
def clusteringFromNng (cfg : Cfg) (spi : Spi F) (cl : Clustering) (nng : Digraph) (o : Options F) (m : SeedMethod) : M (ErrorCode × Clustering × Digraph) := do
  match ← findSeeds cfg nng m (1 + cl.n / o.sizeConstraint) with
  | .error ec => pure (ec, cl, nng)
  | .ok sr => do
    match ← estimateRadii spi sr nng o.sizeConstraint (resolveRadius o o.primaryMethod o.primaryRadius o.primarySupplied)
        (resolveRadius o o.secondaryMethod o.secondaryRadius o.secondarySupplied) with
    | .error ec => pure (ec, cl, nng)
    | .ok (r1, r2) => do
      let (ok, cl) ← ensureLabels cl
      if !ok then do
        freePtr sr.seeds
        let e ← mkErr .noMemory "src/nng_clustering.c" 221
        pure (e, cl, nng)
      else do
        let r ← makeClusters cfg spi cl sr nng (decide (o.numTypes < 2)) o.primaryMethod (decide (r1.1 = .useSupplied)) r1.2 o.lenPrimary o.primary
          o.secondaryMethod (decide (r2.1 = .useSupplied)) r2.2
        freePtr sr.seeds
        pure r

/-- The nearest neighbour digraph, src/nng_clustering.c:85-111. The primary points are an array of the user. -/
def buildNng (cfg : Cfg) (spi : Spi F) (n : Nat) (o : Options F) : M (Except ErrorCode Digraph) :=
  if o.numTypes < 2 then
    nngWithSize cfg spi n o.sizeConstraint o.lenPrimary (o.primary.map fun b => ⟨[], b⟩) (decide (o.seedRadius = .useSupplied)) o.seedSupplied
  else
    nngWithTypes cfg spi n o.sizeConstraint o.numTypes (o.typeConstraints.getD (Buf.raw 0)) (o.typeLabels.getD (Buf.raw 0)) o.lenPrimary
      (o.primary.map fun b => ⟨[], b⟩) (decide (o.seedRadius = .useSupplied)) o.seedSupplied

/-- `scc_sc_clustering` for the methods that build a digraph, src/nng_clustering.c:85-123. -/
def clusterByNng (cfg : Cfg) (spi : Spi F) (cl : Clustering) (o : Options F) (m : SeedMethod) : M (ErrorCode × Clustering) := do
  match ← buildNng cfg spi cl.n o with
  | .error ec => pure (ec, cl)
  | .ok nng => do
    let (ec, cl, nng) ← clusteringFromNng cfg spi cl nng o m
    let _ ← freeDigraph nng
    pure (ec, cl)

/-- `scc_sc_clustering`, src/nng_clustering.c:52-124: the error code and the clustering object. -/
def scClustering (cfg : Cfg) (spi : Spi F) (o : Options F) (p : Option ClObj) : M (ErrorCode × Option ClObj) := do
  let valid ← isInitialized cfg p
  match p, valid with
  | some ob, true =>
    if !spi.valid then do
      let e ← mkErr .invalidInput "src/nng_clustering.c" 60 (some "Invalid data set object."); pure (e, p)
    else if spi.numPoints ≠ ob.cl.n then do
      let e ← mkErr .invalidInput "src/nng_clustering.c" 63 (some "Number of data points in data set does not match clustering object."); pure (e, p)
    else do
      let ec ← checkClusterOptions o ob.cl.n
      if ec ≠ .ok then pure (ec, p)
      else if ob.cl.numClusters ≠ 0 then do
        let e ← mkErr .notImplemented "src/nng_clustering.c" 70 (some "Cannot refine existing clusterings."); pure (e, p)
      else
        match o.seedMethod with
        | .batches => do
          let (ec, cl) ← clusterBatches cfg spi ob.cl o.sizeConstraint o.primaryMethod (decide (o.seedRadius = .useSupplied)) o.seedSupplied
            o.lenPrimary o.primary o.batchSize
          touch [ob.id]
          pure (ec, some ⟨ob.id, cl⟩)
        | .method m => do
          let (ec, cl) ← clusterByNng cfg spi ob.cl o m
          touch [ob.id]
          pure (ec, some ⟨ob.id, cl⟩)
        -- not reachable: the options check rejects unknown methods
        | .unknown => useK [] none
  | _, _ => do let e ← mkErr .invalidInput "src/nng_clustering.c" 57 (some "Invalid clustering object."); pure (e, p)

end Scc
