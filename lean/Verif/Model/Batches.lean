/-
Model of src/nng_batch_clustering.c. Whether `SCC_STABLE_NNG` is defined is the parameter `Cfg.stableNng`.
-/
import Verif.Model.NngCore

namespace Scc

variable {F : Type} [FloatOps F]

/-- One point considered for the batch, src/nng_batch_clustering.c:219-227 (`primary = none`) and 228-237. -/
def batchPoint (cfg : Cfg) (primary : Option (Buf Bool)) (assigned : Buf Bool) (i : Nat) (labels : Buf Int) (batch : Buf Nat) (inb : Nat) :
    Option (Buf Int × Buf Nat × Nat) := do
  let a ← assigned.get i
  if a then pure (labels, batch, inb)
  else do
    let labels ← labels.set i cfg.na
    match primary with
    | none => do
      let batch ← batch.set inb i
      pure (labels, batch, inb + 1)
    | some pr => do
      let p ← pr.get i
      if p then do
        let batch ← batch.set inb i
        pure (labels, batch, inb + 1)
      else pure (labels, batch, inb)

/-- Collecting a batch, src/nng_batch_clustering.c:217-238: new labels, batch, its size and the next point. -/
def fillBatch (cfg : Cfg) (n bs : Nat) (primary : Option (Buf Bool)) (assigned : Buf Bool) (cur : Nat) (labels : Buf Int) (batch : Buf Nat) :
    Option (Buf Int × Buf Nat × Nat × Nat) := do
  match ← forLtB cur n (labels, batch, 0) (fun i (labels, batch, inb) => do
      if inb < bs then do
        let r ← batchPoint cfg primary assigned i labels batch inb
        pure (Ctl.next r)
      else pure (Ctl.stop (labels, batch, inb, i))) with
  | .stop r => pure r
  | .next (labels, batch, inb) => pure (labels, batch, inb, n)

/-- Labels and marks of the points assigned to seeds so far, and the next label. -/
structure BatchSt where
  assigned : Buf Bool
  labels : Buf Int
  next : Nat

/-- Assign point `p` to the cluster `st.next`; for instance src/nng_batch_clustering.c:280-281. -/
def BatchSt.take (st : BatchSt) (p : Nat) : Option BatchSt := do
  let assigned ← st.assigned.set p true
  let labels ← st.labels.set p (st.next : Int)
  pure { st with assigned := assigned, labels := labels }

/-- The last member of a new cluster, src/nng_batch_clustering.c:283-293: the last neighbour if the seed was among the others, otherwise the seed. -/
def lastMember (out : Buf Nat) (pos q : Nat) (selfFound : Bool) : Option Nat :=
  if selfFound then out.get pos else some q

/-- Body of the loop over the answered queries of a batch, src/nng_batch_clustering.c:264-308. Leaving the loop means that there are too many clusters. -/
def batchStep (cfg : Cfg) (S : Nat) (ignore : Bool) (okq out : Buf Nat) (i : Nat) (st : BatchSt) : Option (Ctl BatchSt BatchSt) := do
  let q ← okq.get i
  let aq ← st.assigned.get q
  if aq then pure (.next st)
  else do
    match ← forLtB (i * S) (i * S + S) () (fun j _ => do
        let a ← out.get j
        let m ← st.assigned.get a
        if m then pure (Ctl.stop a) else pure (Ctl.next ())) with
    | .next _ =>
      if st.next = cfg.clabelMax then pure (.stop st)
      else do
        let st ← forLt (i * S) (i * S + S - 1) st fun j st => do
          let a ← out.get j
          st.take a
        let selfFound ← st.assigned.get q
        let last ← lastMember out (i * S + S - 1) q selfFound
        let st ← st.take last
        pure (.next { st with next := st.next + 1 })
    | .stop a =>
      if !ignore then do
        let l ← st.labels.get a
        let labels ← st.labels.set q l
        pure (.next { st with labels := labels })
      else pure (.next st)

/-- Sorting the neighbours of each answered query, in builds that do so; src/nng_batch_clustering.c:258-262. -/
def sortBlocks (cfg : Cfg) (numOk S : Nat) (out : Buf Nat) : Option (Buf Nat) :=
  if cfg.stableNng then forLt 0 numOk out fun i out => qsortAt (i * S) S out else pure out

/-- State between batches: the marks, labels and next label, the contents of `batch_indices` and `out_indices`, and whether a search was done. -/
structure RunSt where
  st : BatchSt
  batch : Buf Nat
  out : Buf Nat
  searched : Bool

/-- Heap blocks used by the loop over batches. -/
structure BatchIds where
  batch : Nat
  out : Nat
  assigned : Nat
  primary : List Nat
  label : List Nat

/-- The loop over batches, src/nng_batch_clustering.c:213-310. Each round advances `cur`, so `fuel = n` rounds suffice; running out of fuel counts as
undefined behaviour, and the proofs show that it does not happen. -/
def batchLoop (cfg : Cfg) (spi : Spi F) (o : spi.NN) (ids : BatchIds) (n S : Nat) (ignore rs : Bool) (radius : F) (primary : Option (Buf Bool)) (bs : Nat) :
    Nat → Nat → RunSt → M (ErrorCode × RunSt)
  | fuel, cur, r => do
    if cur < n then
      match fuel with
      | 0 => useK [] none
      | fuel + 1 => do
        let (labels, batch, inb, cur) ← useK (ids.batch :: ids.assigned :: ids.primary ++ ids.label)
          (fillBatch cfg n bs primary r.st.assigned cur r.st.labels r.batch)
        if inb = 0 then pure (.ok, { r with st := { r.st with labels := labels }, batch := batch })
        else do
          touch [ids.batch, ids.out]
          match ← spi.nnSearch o inb (some ⟨[ids.batch], batch⟩) S rs radius .same r.out with
          | none => do
            let e ← mkErr .distSearch "src/nng_batch_clustering.c" 255
            pure (e, { r with st := { r.st with labels := labels }, batch := batch, searched := true })
          | some res => do
            let nn ← useK [ids.out] (sortBlocks cfg res.numOk S res.nn)
            match ← useK (ids.batch :: ids.out :: ids.assigned :: ids.label)
                (forLtB 0 res.numOk { r.st with labels := labels } (batchStep cfg S ignore res.outQ nn)) with
            | .stop st => do
              let e ← mkErr .tooLarge "src/nng_batch_clustering.c" 272 (some "Too many clusters (adjust the `scc_Clabel` type).")
              pure (e, ⟨st, res.outQ, nn, true⟩)
            | .next st => batchLoop cfg spi o ids n S ignore rs radius primary bs fuel cur ⟨st, res.outQ, nn, true⟩
    else pure (.ok, r)

/-- `iscc_run_nng_batches`, src/nng_batch_clustering.c:187-328: the error code, the labels and `num_clusters` (zero on failure). -/
def runBatches (cfg : Cfg) (spi : Spi F) (o : spi.NN) (ids : BatchIds) (n S : Nat) (ignore rs : Bool) (radius : F) (primary : Option (Buf Bool)) (bs : Nat)
    (batch out : Buf Nat) (assigned : Buf Bool) (labels : Buf Int) : M (ErrorCode × Buf Int × Nat) := do
  let (ec, r) ← batchLoop cfg spi o ids n S ignore rs radius primary bs n 0 ⟨⟨assigned, labels, 0⟩, batch, out, false⟩
  if ec ≠ .ok then pure (ec, r.st.labels, 0)
  else if r.st.next = 0 then
    if !r.searched then do
      let e ← mkErr .noSolution "src/nng_batch_clustering.c" 317 (some "No primary data points.")
      pure (e, r.st.labels, 0)
    else do
      let e ← mkErr .noSolution "src/nng_batch_clustering.c" 321 (some "Infeasible radius constraint.")
      pure (e, r.st.labels, 0)
  else pure (.ok, r.st.labels, r.st.next)

/-- The size of a batch, src/nng_batch_clustering.c:104-107. -/
def effBatch (n batchSize : Nat) : Nat :=
  let b := if batchSize = 0 then 2 ^ 32 - 1 else batchSize
  if n < b then n else b

/-- The marks of the primary points, src/nng_batch_clustering.c:144-146. -/
def markPrimary (len : Nat) (primary : Buf Nat) (b : Buf Bool) : Option (Buf Bool) :=
  forLt 0 len b fun i b => do
    let p ← primary.get i
    b.set p true

/-- `tmp_primary_data_points`, src/nng_batch_clustering.c:141-147. The result of the allocation is not checked by the code. -/
def initPrimary (n len : Nat) (primary : Option (Buf Nat)) : M (Option (Blk Bool)) :=
  match primary with
  | none => pure none
  | some p => do
    let b ← alloc (Buf.fill n false : Buf Bool) false
    let c ← useK (ptrIds b) (markPrimary len p (ptrBuf b))
    pure (ptrSet b c)

/-- The label array, allocated if the clustering has none; src/nng_batch_clustering.c:130-139 and src/nng_clustering.c:214-223. The result is
whether there is an array now, and the clustering. -/
def ensureLabels (cl : Clustering) : M (Bool × Clustering) :=
  match cl.label with
  | some _ => pure (true, cl)
  | none => do
    match ← alloc (Buf.raw cl.n : Buf Int) with
    | none => pure (false, { cl with external := false })
    | some b => pure (true, { cl with external := false, label := some b })

/-- The error found by the checks of `scc_nng_clustering_batches`, src/nng_batch_clustering.c:73-102, after the check of the clustering object. -/
def batchArgsError (spi : Spi F) (cl : Clustering) (S : Nat) (um : UnassignedMethod) (rs : Bool) (radius : F) (lenPrimary : Nat) (primary : Option (Buf Nat)) :
    Option (ErrorCode × Nat × String) :=
  if !spi.valid then some (.invalidInput, 77, "Invalid data set object.")
  else if spi.numPoints ≠ cl.n then some (.invalidInput, 80, "Number of data points in data set does not match clustering object.")
  else if S < 2 then some (.invalidInput, 83, "Size constraint must be 2 or greater.")
  else if cl.n < S then some (.noSolution, 86, "Fewer data points than size constraint.")
  else if um ≠ .ignore ∧ um ≠ .anyNeighbor then some (.invalidInput, 89, "Invalid unassigned method.")
  else if rs = true ∧ FloatOps.le radius FloatOps.zero then some (.invalidInput, 92, "Invalid radius.")
  else if primary.isSome ∧ lenPrimary = 0 then some (.invalidInput, 95, "Invalid primary data points.")
  else if primary.isNone ∧ 0 < lenPrimary then some (.invalidInput, 98, "Invalid primary data points.")
  else if cl.numClusters ≠ 0 then some (.notImplemented, 101, "Cannot refine existing clusterings.")
  else none

/-- `scc_nng_clustering_batches` after the search object and the three arrays have been allocated, src/nng_batch_clustering.c:129-167. -/
def batchesMain (cfg : Cfg) (spi : Spi F) (o : spi.NN) (cl : Clustering) (S : Nat) (um : UnassignedMethod) (rs : Bool) (radius : F) (lenPrimary : Nat)
    (primary : Option (Buf Nat)) (bs : Nat) (batch out : Blk Nat) (assigned : Blk Bool) : M (ErrorCode × Clustering) := do
  let (ok, cl) ← ensureLabels cl
  if !ok then do
    freeId batch.id
    freeId out.id
    freeId assigned.id
    let _ ← spi.nnClose o
    let e ← mkErr .noMemory "src/nng_batch_clustering.c" 137
    pure (e, cl)
  else do
    let pr ← initPrimary cl.n lenPrimary primary
    let (ec, l, num) ← runBatches cfg spi o ⟨batch.id, out.id, assigned.id, ptrIds pr, ptrIds cl.label⟩ cl.n S (decide (um = .ignore)) rs radius
      (pr.map Blk.buf) bs batch.buf out.buf assigned.buf (ptrBuf cl.label)
    freeId batch.id
    freeId out.id
    freeId assigned.id
    freePtr pr
    let _ ← spi.nnClose o
    pure (ec, { cl with label := ptrSet cl.label l, numClusters := num })

/-- `scc_nng_clustering_batches`, src/nng_batch_clustering.c:63-168, with a clustering object that passed the first check. The product
`size_constraint * batch_size` is computed in 32 bits. -/
def clusterBatches (cfg : Cfg) (spi : Spi F) (cl : Clustering) (S : Nat) (um : UnassignedMethod) (rs : Bool) (radius : F) (lenPrimary : Nat)
    (primary : Option (Buf Nat)) (batchSize : Nat) : M (ErrorCode × Clustering) := do
  match batchArgsError spi cl S um rs radius lenPrimary primary with
  | some (ec, line, msg) => do
    let e ← mkErr ec "src/nng_batch_clustering.c" line (some msg)
    pure (e, cl)
  | none => do
    match ← spi.nnInit cl.n none with
    | none => do
      let e ← mkErr .distSearch "src/nng_batch_clustering.c" 114
      pure (e, cl)
    | some o => do
      let batch ← alloc (Buf.raw (effBatch cl.n batchSize) : Buf Nat)
      let out ← alloc (Buf.raw (u32 (S * effBatch cl.n batchSize)) : Buf Nat)
      let assigned ← alloc (Buf.fill cl.n false : Buf Bool)
      match batch, out, assigned with
      | some batch, some out, some assigned => batchesMain cfg spi o cl S um rs radius lenPrimary primary (effBatch cl.n batchSize) batch out assigned
      | batch, out, assigned => do
        freePtr batch
        freePtr out
        freePtr assigned
        let _ ← spi.nnClose o
        let e ← mkErr .noMemory "src/nng_batch_clustering.c" 125
        pure (e, cl)

end Scc
