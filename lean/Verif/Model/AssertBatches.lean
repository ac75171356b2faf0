/-
Model of src/nng_batch_clustering.c as built with `--enable-assert`: the functions of Model/Batches.lean with the assertions in their places. Assertions that a pointer is not NULL are
left out where the pointer is a parameter that is not optional in the model (lines 202 and 207-209).
-/
import Verif.Model.Batches
import Verif.Model.Assert

namespace Scc

variable {F : Type} [FloatOps F]

/-- Body of the loop over the answered queries of a batch, src/nng_batch_clustering.c:264-308, with the assertions of lines 275, 278, 284, 289, 294 and 301-304. -/
def batchStepDbg (cfg : Cfg) (S : Nat) (ignore : Bool) (okq out : Buf Nat) (i : Nat) (st : BatchSt) : Option (Ctl BatchSt BatchSt) := do
  let q ← okq.get i
  let aq ← st.assigned.get q
  if aq then pure (.next st)
  else do
    match ← forLtB (i * S) (i * S + S) () (fun j _ => do
        let a ← out.get j
        let m ← st.assigned.get a
        if m then pure (Ctl.stop a) else pure (Ctl.next ())) with
    | .next _ =>
      if st.next = cfg.clabelMax then pure (.stop st)
      else do
        let aq ← st.assigned.get q
        asrt (aq = false)
        let st ← forLt (i * S) (i * S + S - 1) st fun j st => do
          let a ← out.get j
          let aa ← st.assigned.get a
          asrt (aa = false)
          st.take a
        let selfFound ← st.assigned.get q
        let last ← lastMember out (i * S + S - 1) q selfFound
        let al ← st.assigned.get last
        asrt (al = false)
        let st ← st.take last
        let l ← st.labels.get q
        asrt (l = (st.next : Int))
        pure (.next { st with next := st.next + 1 })
    | .stop a =>
      if !ignore then do
        let aa ← st.assigned.get a
        asrt (aa = true)
        let lq ← st.labels.get q
        asrt (lq = cfg.na)
        let la ← st.labels.get a
        asrt (la ≠ cfg.na)
        let aq ← st.assigned.get q
        asrt (aq = false)
        let l ← st.labels.get a
        let labels ← st.labels.set q l
        pure (.next { st with labels := labels })
      else pure (.next st)

/-- The loop over batches, src/nng_batch_clustering.c:213-310, with the assertion of line 240. -/
def batchLoopDbg (cfg : Cfg) (spi : Spi F) (o : spi.NN) (ids : BatchIds) (n S : Nat) (ignore rs : Bool) (radius : F) (primary : Option (Buf Bool)) (bs : Nat) :
    Nat → Nat → RunSt → M (ErrorCode × RunSt)
  | fuel, cur, r => do
    if cur < n then
      match fuel with
      | 0 => useK [] none
      | fuel + 1 => do
        let (labels, batch, inb, cur) ← useK (ids.batch :: ids.assigned :: ids.primary ++ ids.label)
          (fillBatch cfg n bs primary r.st.assigned cur r.st.labels r.batch)
        if inb = 0 then do
          asrtM (cur = n)
          pure (.ok, { r with st := { r.st with labels := labels }, batch := batch })
        else do
          touch [ids.batch, ids.out]
          match ← spi.nnSearch o inb (some ⟨[ids.batch], batch⟩) S rs radius .same r.out with
          | none => do
            let e ← mkErr .distSearch "src/nng_batch_clustering.c" 255
            pure (e, { r with st := { r.st with labels := labels }, batch := batch, searched := true })
          | some res => do
            let nn ← useK [ids.out] (sortBlocks cfg res.numOk S res.nn)
            match ← useK (ids.batch :: ids.out :: ids.assigned :: ids.label)
                (forLtB 0 res.numOk { r.st with labels := labels } (batchStepDbg cfg S ignore res.outQ nn)) with
            | .stop st => do
              let e ← mkErr .tooLarge "src/nng_batch_clustering.c" 272 (some "Too many clusters (adjust the `scc_Clabel` type).")
              pure (e, ⟨st, res.outQ, nn, true⟩)
            | .next st => batchLoopDbg cfg spi o ids n S ignore rs radius primary bs fuel cur ⟨st, res.outQ, nn, true⟩
    else pure (.ok, r)

/-- `iscc_run_nng_batches`, src/nng_batch_clustering.c:187-328, with the assertions of lines 199-201, 203-206, 213, 316 and 320. -/
def runBatchesDbg (cfg : Cfg) (spi : Spi F) (o : spi.NN) (cl : Clustering) (ids : BatchIds) (n S : Nat) (ignore rs : Bool) (radius : F) (primary : Option (Buf Bool)) (bs : Nat)
    (batch out : Buf Nat) (assigned : Buf Bool) (labels : Buf Int) : M (ErrorCode × Buf Int × Nat) := do
  asrtM (cl.isInitialized cfg = true)
  asrtM (cl.label.isSome = true)
  asrtM (cl.numClusters = 0)
  asrtM (2 ≤ S)
  asrtM (S ≤ cl.n)
  asrtM (rs = false ∨ FloatOps.lt FloatOps.zero radius = true)
  asrtM (0 < bs)
  asrtM (cl.n ≤ cfg.pointMax)
  let (ec, r) ← batchLoopDbg cfg spi o ids n S ignore rs radius primary bs n 0 ⟨⟨assigned, labels, 0⟩, batch, out, false⟩
  if ec ≠ .ok then pure (ec, r.st.labels, 0)
  else if r.st.next = 0 then
    if !r.searched then do
      asrtM (primary.isSome = true)
      let e ← mkErr .noSolution "src/nng_batch_clustering.c" 317 (some "No primary data points.")
      pure (e, r.st.labels, 0)
    else do
      asrtM (rs = true)
      let e ← mkErr .noSolution "src/nng_batch_clustering.c" 321 (some "Infeasible radius constraint.")
      pure (e, r.st.labels, 0)
  else pure (.ok, r.st.labels, r.st.next)

/-- `scc_nng_clustering_batches` after the search object and the three arrays have been allocated, src/nng_batch_clustering.c:129-167. -/
def batchesMainDbg (cfg : Cfg) (spi : Spi F) (o : spi.NN) (cl : Clustering) (S : Nat) (um : UnassignedMethod) (rs : Bool) (radius : F) (lenPrimary : Nat)
    (primary : Option (Buf Nat)) (bs : Nat) (batch out : Blk Nat) (assigned : Blk Bool) : M (ErrorCode × Clustering) := do
  let (ok, cl) ← ensureLabels cl
  if !ok then do
    freeId batch.id
    freeId out.id
    freeId assigned.id
    let _ ← spi.nnClose o
    let e ← mkErr .noMemory "src/nng_batch_clustering.c" 137
    pure (e, cl)
  else do
    let pr ← initPrimary cl.n lenPrimary primary
    let (ec, l, num) ← runBatchesDbg cfg spi o cl ⟨batch.id, out.id, assigned.id, ptrIds pr, ptrIds cl.label⟩ cl.n S (decide (um = .ignore)) rs radius
      (pr.map Blk.buf) bs batch.buf out.buf assigned.buf (ptrBuf cl.label)
    freeId batch.id
    freeId out.id
    freeId assigned.id
    freePtr pr
    let _ ← spi.nnClose o
    pure (ec, { cl with label := ptrSet cl.label l, numClusters := num })

/-- `scc_nng_clustering_batches`, src/nng_batch_clustering.c:63-168. -/
def clusterBatchesDbg (cfg : Cfg) (spi : Spi F) (cl : Clustering) (S : Nat) (um : UnassignedMethod) (rs : Bool) (radius : F) (lenPrimary : Nat)
    (primary : Option (Buf Nat)) (batchSize : Nat) : M (ErrorCode × Clustering) := do
  match batchArgsError spi cl S um rs radius lenPrimary primary with
  | some (ec, line, msg) => do
    let e ← mkErr ec "src/nng_batch_clustering.c" line (some msg)
    pure (e, cl)
  | none => do
    match ← spi.nnInit cl.n none with
    | none => do
      let e ← mkErr .distSearch "src/nng_batch_clustering.c" 114
      pure (e, cl)
    | some o => do
      let batch ← alloc (Buf.raw (effBatch cl.n batchSize) : Buf Nat)
      let out ← alloc (Buf.raw (u32 (S * effBatch cl.n batchSize)) : Buf Nat)
      let assigned ← alloc (Buf.fill cl.n false : Buf Bool)
      match batch, out, assigned with
      | some batch, some out, some assigned => batchesMainDbg cfg spi o cl S um rs radius lenPrimary primary (effBatch cl.n batchSize) batch out assigned
      | batch, out, assigned => do
        freePtr batch
        freePtr out
        freePtr assigned
        let _ ← spi.nnClose o
        let e ← mkErr .noMemory "src/nng_batch_clustering.c" 125
        pure (e, cl)

end Scc
