/-
Model of `scc_get_clustering_stats`, src/utilities.c:174-323.
-/
import Verif.Model.NngClustering

namespace Scc

variable {F : Type} [FloatOps F]

/-- `scc_ClusteringStats`, templates/scclust.h:393-408. -/
structure Stats (F : Type) where
  numPoints : Nat
  numAssigned : Nat
  numClusters : Nat
  populated : Nat
  minSize : Nat
  maxSize : Nat
  avgSize : F
  sumDists : F
  minDist : F
  maxDist : F
  avgMin : F
  avgMax : F
  avgWeighted : F
  avgUnweighted : F

/-- `ISCC_NULL_CLUSTERING_STATS`, src/utilities.c:44. -/
def nullStats : Stats F where
  numPoints := 0
  numAssigned := 0
  numClusters := 0
  populated := 0
  minSize := 0
  maxSize := 0
  avgSize := FloatOps.zero
  sumDists := FloatOps.zero
  minDist := FloatOps.zero
  maxDist := FloatOps.zero
  avgMin := FloatOps.zero
  avgMax := FloatOps.zero
  avgWeighted := FloatOps.zero
  avgUnweighted := FloatOps.zero

/-- The initial value of `tmp_stats`, src/utilities.c:204-219. -/
def startStats (n k : Nat) : Stats F :=
  { (nullStats : Stats F) with numPoints := n, numClusters := k, minSize := 2 ^ 64 - 1, minDist := FloatOps.dblMax }

/-- The body of the first loop over the clusters, src/utilities.c:222-230. -/
def countCluster (s : Nat) (st : Stats F) : Stats F :=
  if s = 0 then st
  else { st with
    populated := st.populated + 1
    numAssigned := st.numAssigned + s
    minSize := if s < st.minSize then s else st.minSize
    maxSize := if st.maxSize < s then s else st.maxSize }

/-- Sizes of the clusters, src/utilities.c:221-231. -/
def sizeStats (k : Nat) (sizes : Buf Nat) (st : Stats F) : Option (Stats F) :=
  forLt 0 k st fun c st => do
    let s ← sizes.get c
    pure (countCluster s st)

/-- End of the members of each cluster, src/utilities.c:251-254. The pointers into `id_store` are modelled by offsets. -/
def statEnds (k : Nat) (sizes ends : Buf Nat) : Option (Buf Nat) := do
  let s0 ← sizes.get 0
  let ends ← ends.set 0 s0
  forLt 1 k ends fun c ends => do
    let e ← ends.get (c - 1)
    let s ← sizes.get c
    ends.set c (e + s)

/-- Members of each cluster, src/utilities.c:258-263. -/
def statMembers (cfg : Cfg) (n : Nat) (labels : Buf Int) (ends store : Buf Nat) : Option (Buf Nat × Buf Nat) :=
  forLt 0 n (ends, store) fun i (ends, store) => do
    let l ← labels.get i
    if l ≠ cfg.na then do
      let c ← labelIdx l
      let e ← ends.get c
      if e = 0 then none
      else do
        let ends ← ends.set c (e - 1)
        let store ← store.set (e - 1) i
        pure (ends, store)
    else pure (ends, store)

/-- Sum, minimum and maximum of the `m` distances of a cluster, src/utilities.c:280-292. -/
def distSummary (m : Nat) (d : Buf F) : Option (F × F × F) := do
  let x ← d.get 0
  forLt 1 m (x, x, x) fun i (sum, lo, hi) => do
    let y ← d.get i
    pure (FloatOps.add sum y, if FloatOps.lt y lo then y else lo, if FloatOps.lt hi y then y else hi)

/-- A cluster of `s` points with `m` distances enters the statistics, src/utilities.c:294-306. -/
def addCluster (s m : Nat) (sum lo hi : F) (st : Stats F) : Stats F :=
  { st with
    sumDists := FloatOps.add st.sumDists sum
    minDist := if FloatOps.lt lo st.minDist then lo else st.minDist
    maxDist := if FloatOps.lt st.maxDist hi then hi else st.maxDist
    avgMin := FloatOps.add st.avgMin lo
    avgMax := FloatOps.add st.avgMax hi
    avgWeighted := FloatOps.add st.avgWeighted (FloatOps.div (FloatOps.mul (FloatOps.ofNat s) sum) (FloatOps.ofNat m))
    avgUnweighted := FloatOps.add st.avgUnweighted (FloatOps.div sum (FloatOps.ofNat m)) }

/-- The heap blocks of `cluster_size`, `id_store`, `cl_members` and `dist_scratch`. -/
structure StatIds where
  sizes : Nat
  store : Nat
  ends : Nat
  scratch : Nat

/-- Size and first member of a cluster. -/
def statCluster (sizes ends : Buf Nat) (c : Nat) : Option (Nat × Nat) := do
  let s ← sizes.get c
  let e ← ends.get c
  pure (s, e)

/-- The body of the second loop over the clusters, src/utilities.c:265-307. `size_dist_matrix` is computed with the width of `size_t`. The pointer of a cluster that is too small
is not used. -/
def statsStep (cfg : Cfg) (spi : Spi F) (ids : StatIds) (sizes ends store : Buf Nat) (st : Stats F × Buf F) (c : Nat) : M (Ctl (Stats F × Buf F) Unit) := do
  let (s, e) ← useK [ids.sizes, ids.ends] (statCluster sizes ends c)
  if s < 2 then
    if s = 1 then pure (.next ({ st.1 with minDist := FloatOps.zero }, st.2)) else pure (.next st)
  else do
    touch [ids.scratch]
    match ← spi.distMatrix s (some ⟨[ids.store], store.drop e⟩) st.2 with
    | none => pure (.stop ())
    | some d => do
      let m := ((s * (s - 1)) % (cfg.sizeMax + 1)) / 2
      let (sum, lo, hi) ← useK [ids.scratch] (distSummary m d)
      pure (.next (addCluster s m sum lo hi st.1, d))

/-- The averages, src/utilities.c:309-313. -/
def finishStats (st : Stats F) : Stats F :=
  { st with
    avgSize := FloatOps.div (FloatOps.ofNat st.numAssigned) (FloatOps.ofNat st.populated)
    avgMin := FloatOps.div st.avgMin (FloatOps.ofNat st.populated)
    avgMax := FloatOps.div st.avgMax (FloatOps.ofNat st.populated)
    avgWeighted := FloatOps.div st.avgWeighted (FloatOps.ofNat st.numAssigned)
    avgUnweighted := FloatOps.div st.avgUnweighted (FloatOps.ofNat st.populated) }

/-- With all arrays, src/utilities.c:251-322: the statistics or `none` if the distances could not be computed. -/
def statsRun (cfg : Cfg) (spi : Spi F) (cl : Clustering) (st : Stats F) (sizes store ends : Blk Nat) (scratch : Blk F) : M (ErrorCode × Option (Stats F)) := do
  let e ← useK [sizes.id, ends.id] (statEnds cl.numClusters sizes.buf ends.buf)
  let (e, s) ← useK (ends.id :: store.id :: ptrIds cl.label) (statMembers cfg cl.n (ptrBuf cl.label) e store.buf)
  match ← foldBM (statsStep cfg spi ⟨sizes.id, store.id, ends.id, scratch.id⟩ sizes.buf e s) (st, scratch.buf) (List.range cl.numClusters) with
  | .stop _ => do
    freeId sizes.id
    freeId store.id
    freeId ends.id
    freeId scratch.id
    let e ← mkErr .distSearch "src/utilities.c" 277
    pure (e, none)
  | .next (st, _) => do
    freeId sizes.id
    freeId store.id
    freeId ends.id
    freeId scratch.id
    pure (.ok, some (finishStats st))

/-- The number of entries of `dist_scratch`, src/utilities.c:239: computed in 64 bits and converted to `size_t`. -/
def scratchLen (cfg : Cfg) (maxSize : Nat) : Nat := (u64 (maxSize * (maxSize - 1)) / 2) % (cfg.sizeMax + 1)

/-- Allocation of the arrays, src/utilities.c:239-249. -/
def statsArrays (cfg : Cfg) (spi : Spi F) (cl : Clustering) (st : Stats F) (sizes : Blk Nat) : M (ErrorCode × Option (Stats F)) := do
  let store ← alloc (Buf.raw st.numAssigned : Buf Nat)
  let ends ← alloc (Buf.raw cl.numClusters : Buf Nat)
  let scratch ← alloc (Buf.raw (scratchLen cfg st.maxSize) : Buf F)
  match store, ends, scratch with
  | some store, some ends, some scratch => statsRun cfg spi cl st sizes store ends scratch
  | store, ends, scratch => do
    freeId sizes.id
    freePtr store
    freePtr ends
    freePtr scratch
    let e ← mkErr .noMemory "src/utilities.c" 248
    pure (e, none)

/-- The function after the checks, src/utilities.c:195-322. -/
def statsMain (cfg : Cfg) (spi : Spi F) (cl : Clustering) : M (ErrorCode × Option (Stats F)) := do
  match ← alloc (Buf.fill cl.numClusters 0 : Buf Nat) with
  | none => do
    let e ← mkErr .noMemory "src/utilities.c" 196
    pure (e, none)
  | some b => do
    let sizes ← useK (b.id :: ptrIds cl.label) (countSizes cfg cl.n (ptrBuf cl.label) b.buf)
    let st ← useK [b.id] (sizeStats cl.numClusters sizes (startStats cl.n cl.numClusters))
    if st.populated = 0 then do
      freeId b.id
      pure (.ok, some st)
    else statsArrays cfg spi cl st ⟨b.id, sizes⟩

/-- The error found by the checks, src/utilities.c:185-193. -/
def statsError (spi : Spi F) (cl : Clustering) : Option (Nat × String) :=
  if cl.numClusters = 0 then some (186, "Empty clustering.")
  else if !spi.valid then some (189, "Invalid data set object.")
  else if spi.numPoints ≠ cl.n then some (192, "Number of data points in data set does not match clustering object.")
  else none

/-- `scc_get_clustering_stats`, src/utilities.c:174-323: the error code and the statistics left in `*out_stats` (`none` if there is no output parameter). -/
def getStats (cfg : Cfg) (spi : Spi F) (p : Option ClObj) (hasOut : Bool) : M (ErrorCode × Option (Stats F)) := do
  if !hasOut then do
    let e ← mkErr .invalidInput "src/utilities.c" 179 (some "Output parameter may not be NULL."); pure (e, none)
  else do
    let valid ← isInitialized cfg p
    match p, valid with
    | some ob, true =>
      match statsError spi ob.cl with
      | some (line, msg) => do
        let e ← mkErr .invalidInput "src/utilities.c" line (some msg)
        pure (e, some nullStats)
      | none => do
        let (e, st) ← statsMain cfg spi ob.cl
        pure (e, some (st.getD nullStats))
    | _, _ => do let e ← mkErr .invalidInput "src/utilities.c" 183 (some "Invalid clustering object."); pure (e, some nullStats)

end Scc
