/-
Model of src/hierarchical_clustering.c as built with `--enable-assert` (configure:113-117 and 186-188): without `NDEBUG` the statements `assert(...)` are evaluated, and the program is
aborted when one is false. The functions here are those of Model/Hierarchical.lean with the assertions in their places. Assertions that a pointer is not NULL are left out where the
pointer is a parameter that is not optional in the model (NULL cannot be passed), as are those that repeat a test made just before.
-/
import Verif.Model.Hierarchical
import Verif.Model.Assert

namespace Scc

variable {F : Type} [FloatOps F]

/-- `iscc_hi_get_next_marker`, src/hierarchical_clustering.c:584-601, with the assertion of line 588. -/
def nextMarkerDbg (cfg : Cfg) (store : Buf Nat) (c : HiItem) (marks : Buf Nat) : Option (HiItem × Buf Nat) := do
  asrt (0 < c.size)
  nextMarker cfg store c marks

/-- `iscc_hi_find_centers`, src/hierarchical_clustering.c:728-800, with the assertions of lines 735, 737 and 758. -/
def findCentersDbg (cfg : Cfg) (spi : Spi F) (ids : HiIds) (c : HiItem) (b : HiBufs F) : M (Except ErrorCode (HiItem × HiBufs F × Nat × Nat)) := do
  asrtM (4 ≤ c.size)
  asrtM (spi.valid = true)
  let (c, off, toCheck, marks) ← useK ids.all (do
    let (c, marks) ← nextMarkerDbg cfg b.store c b.marks
    let off ← c.members
    asrt (checkCount cfg c.size ≤ hiNumToCheck)
    let (toCheck, marks) ← firstToCheck b.store off (checkStep c.size) (checkCount cfg c.size) c.marker b.idx1 marks
    pure (c, off, toCheck, marks))
  match ← spi.maxInit c.size (some ⟨[ids.store], b.store.drop off⟩) with
  | none => fail .distSearch "src/hierarchical_clustering.c" 767
  | some obj => do
    match ← centerLoop spi ids obj c.marker (c.size + 1) ⟨toCheck, marks, checkCount cfg c.size, FloatOps.negOne, cfg.pointMax, cfg.pointMax⟩ b.idx2 b.dists with
    | .error e => pure (.error e)
    | .ok (st, maxI, maxD) => do
      if ← spi.maxClose obj then
        pure (.ok (c, { b with idx1 := st.toCheck, idx2 := maxI, dists := maxD, marks := st.marks }, st.center1, st.center2))
      else fail .distSearch "src/hierarchical_clustering.c" 796

/-- `iscc_hi_sort_edge_list`, src/hierarchical_clustering.c:840-866, with the assertions of lines 844 and 857. -/
def sortEdgesDbg (hi : HiEnv F) (store : Buf Nat) (off size center : Nat) (dists : Buf F) (r : Nat) (edges : Buf (Nat × F)) :
    Option (Buf (Nat × F) × Buf (Option Nat)) := do
  asrt (4 ≤ size)
  let (edges, w) ← forLt 0 size (edges, 1) fun i (edges, w) => do
    let x ← store.get (off + i)
    if x = center then pure (edges, w)
    else do
      let d ← dists.get (r * size + i)
      let edges ← edges.set w (x, d)
      pure (edges, w + 1)
  asrt (w = size)
  let l ← (edges.drop 1).read (size - 1)
  let sorted ← sortList hi l
  let edges ← forLt 0 (size - 1) edges fun i edges => do
    let e ← sorted[i]?
    edges.set (1 + i) e
  let next ← forNe 0 (size - 1) (Buf.raw edges.len) fun i next => next.set i (some (i + 1))
  let next ← next.set (size - 1) none
  pure (edges, next)

/-- `iscc_hi_get_next_dist`, src/hierarchical_clustering.c:625-640, with the assertions of lines 630 and 636 that the end of the list is not reached. -/
def nextDistDbg (edges : Buf (Nat × F)) (marks : Buf Nat) (marker prev : Nat) : Nat → Buf (Option Nat) → Option (Nat × Buf (Option Nat))
  | 0, _ => none
  | fuel + 1, next => do
    let p ← next.get prev
    asrt (p.isSome = true)
    let p ← p
    let e ← edges.get p
    let m ← marks.get e.1
    if m = marker then do
      let q ← next.get p
      let next ← next.set prev q
      nextDistDbg edges marks marker prev fuel next
    else pure (p, next)

/-- `iscc_hi_get_next_k_nn`, src/hierarchical_clustering.c:604-622, with the assertions of lines 611 and 612. -/
def nextKnnDbg (edges : Buf (Nat × F)) (marks : Buf Nat) (marker prev k : Nat) (next : Buf (Option Nat)) (out : Buf Nat) : Option (Nat × Buf (Option Nat) × Buf Nat) := do
  let p ← next.get prev
  asrt (p.isSome = true)
  asrt (0 < k)
  forLt 0 k (prev, next, out) fun i (prev, next, out) => do
    let (p, next) ← nextDistDbg edges marks marker prev edges.len next
    let e ← edges.get p
    let out ← out.set i e.1
    pure (p, next, out)

/-- `iscc_hi_move_point_to_cluster1`, src/hierarchical_clustering.c:643-657, with the assertions of lines 651 and 652. -/
def moveTo1Dbg (marker x : Nat) (p : HiParts) : Option HiParts := do
  let m ← p.marks.get x
  asrt (m ≠ marker)
  asrt (p.c1.marker = marker)
  moveTo1 marker x p

/-- `iscc_hi_move_point_to_cluster2`, src/hierarchical_clustering.c:660-675, with the assertions of lines 668 and 669. -/
def moveTo2Dbg (marker x : Nat) (p : HiParts) : Option HiParts := do
  let m ← p.marks.get x
  asrt (m ≠ marker)
  asrt (p.c2.marker = marker)
  moveTo2 marker x p

/-- `iscc_hi_move_array_to_cluster1`, src/hierarchical_clustering.c:678-701, with the assertions of lines 684, 689 and 694. -/
def moveArrTo1Dbg (marker k : Nat) (ids : Buf Nat) (p : HiParts) : Option HiParts := do
  asrt (0 < k)
  asrt (p.c1.marker = marker)
  forNe 0 k p fun i p => do
    let x ← ids.get i
    let m ← p.marks.get x
    asrt (m ≠ marker)
    moveTo1 marker x p

/-- `iscc_hi_move_array_to_cluster2`, src/hierarchical_clustering.c:704-725, with the assertions of lines 709, 714 and 718. -/
def moveArrTo2Dbg (marker k : Nat) (ids : Buf Nat) (p : HiParts) : Option HiParts := do
  asrt (0 < k)
  asrt (p.c2.marker = marker)
  forNe 0 k p fun i p => do
    let x ← ids.get i
    let m ← p.marks.get x
    asrt (m ≠ marker)
    moveTo2 marker x p

/-- The search for the next `k` points in list 1, as `HiSplit.knn1of`. Models the calls of src/hierarchical_clustering.c:514, 527, 545. -/
def HiSplit.knn1ofDbg (e1 : Buf (Nat × F)) (marker k : Nat) (s : HiSplit) : Option (Nat × HiSplit) := do
  let (t, next, knn) ← nextKnnDbg e1 s.parts.marks marker s.last1 k s.next1 s.knn1
  pure (t, { s with next1 := next, knn1 := knn })

/-- The same for list 2. Models the calls of src/hierarchical_clustering.c:515, 521, 546. -/
def HiSplit.knn2ofDbg (e2 : Buf (Nat × F)) (marker k : Nat) (s : HiSplit) : Option (Nat × HiSplit) := do
  let (t, next, knn) ← nextKnnDbg e2 s.parts.marks marker s.last2 k s.next2 s.knn2
  pure (t, { s with next2 := next, knn2 := knn })

/-- The first `size_constraint` points of each cluster, src/hierarchical_clustering.c:514-533. -/
def splitFirstDbg (e1 e2 : Buf (Nat × F)) (S marker : Nat) (s : HiSplit) : Option HiSplit := do
  let (t1, s) ← s.knn1ofDbg e1 marker (S - 1)
  let (t2, s) ← s.knn2ofDbg e2 marker (S - 1)
  let d1 ← e1.get t1
  let d2 ← e2.get t2
  if FloatOps.le d2.2 d1.2 then do
    let parts ← moveArrTo1Dbg marker (S - 1) s.knn1 s.parts
    let s := { s with parts := parts, last1 := t1 }
    let (t2, s) ← s.knn2ofDbg e2 marker (S - 1)
    let parts ← moveArrTo2Dbg marker (S - 1) s.knn2 s.parts
    pure { s with parts := parts, last2 := t2 }
  else do
    let parts ← moveArrTo2Dbg marker (S - 1) s.knn2 s.parts
    let s := { s with parts := parts, last2 := t2 }
    let (t1, s) ← s.knn1ofDbg e1 marker (S - 1)
    let parts ← moveArrTo1Dbg marker (S - 1) s.knn1 s.parts
    pure { s with parts := parts, last1 := t1 }

/-- One round of the batch assignment, src/hierarchical_clustering.c:545-554. -/
def splitBatchDbg (e1 e2 : Buf (Nat × F)) (marker k : Nat) (s : HiSplit) : Option HiSplit := do
  let (t1, s) ← s.knn1ofDbg e1 marker k
  let (t2, s) ← s.knn2ofDbg e2 marker k
  let d1 ← e1.get t1
  let d2 ← e2.get t2
  if FloatOps.le d1.2 d2.2 then do
    let parts ← moveArrTo1Dbg marker k s.knn1 s.parts
    pure { s with parts := parts, last1 := t1 }
  else do
    let parts ← moveArrTo2Dbg marker k s.knn2 s.parts
    pure { s with parts := parts, last2 := t2 }

/-- The loop of the batch assignment, src/hierarchical_clustering.c:540-555. It ends only when no point is left, which is the assertion of line 575. -/
def splitBatchesDbg (e1 e2 : Buf (Nat × F)) (marker : Nat) : Nat → Nat → Nat → HiSplit → Option HiSplit
  | 0, _, _, _ => none
  | fuel + 1, left, k, s => do
    if left = 0 then pure s
    else do
      let k := if left < k then left else k
      let s ← splitBatchDbg e1 e2 marker k s
      splitBatchesDbg e1 e2 marker fuel (left - k) k s

/-- One round of the assignment of single points, src/hierarchical_clustering.c:559-568. -/
def splitSingleDbg (e1 e2 : Buf (Nat × F)) (marker : Nat) (s : HiSplit) : Option HiSplit := do
  let (t1, next1) ← nextDistDbg e1 s.parts.marks marker s.last1 e1.len s.next1
  let (t2, next2) ← nextDistDbg e2 s.parts.marks marker s.last2 e2.len s.next2
  let s := { s with next1 := next1, next2 := next2 }
  let d1 ← e1.get t1
  let d2 ← e2.get t2
  if FloatOps.le d1.2 d2.2 then do
    let parts ← moveTo1Dbg marker d1.1 s.parts
    pure { s with parts := parts, last1 := t1 }
  else do
    let parts ← moveTo2Dbg marker d2.1 s.parts
    pure { s with parts := parts, last2 := t2 }

/-- The points that are left, src/hierarchical_clustering.c:537-569. -/
def splitRestDbg (e1 e2 : Buf (Nat × F)) (S marker left : Nat) (batch : Bool) (s : HiSplit) : Option HiSplit :=
  if batch then splitBatchesDbg e1 e2 marker (left + 1) left S s else forLt 0 left s fun _ s => splitSingleDbg e1 e2 marker s

/-- Breaking a cluster when the distances are there, as `splitCluster`, with the assertions of src/hierarchical_clustering.c:538 and 576-578. -/
def splitClusterDbg (cfg : Cfg) (hi : HiEnv F) (S : Nat) (batch : Bool) (c : HiItem) (center1 center2 : Nat) (b : HiBufs F) : Option (HiItem × HiItem × HiBufs F) := do
  let off ← c.members
  let (e1, next1) ← sortEdgesDbg hi b.store off c.size center1 b.dists 0 b.edges1
  let (e2, next2) ← sortEdgesDbg hi b.store off c.size center2 b.dists 1 b.edges2
  let (c, marks) ← nextMarkerDbg cfg b.store c b.marks
  let size := c.size
  let parts : HiParts := ⟨b.store, marks, { c with size := 0 }, ⟨0, c.marker, some (off + size)⟩⟩
  let parts ← moveTo1Dbg c.marker center1 parts
  let parts ← moveTo2Dbg c.marker center2 parts
  let s ← splitFirstDbg e1 e2 S c.marker ⟨parts, 0, 0, next1, next2, b.idx1, b.idx2⟩
  asrt (s.parts.c1.size = S ∧ s.parts.c2.size = S)
  let s ← splitRestDbg e1 e2 S c.marker (size - u32 (2 * S)) batch s
  asrt (S ≤ s.parts.c1.size)
  asrt (S ≤ s.parts.c2.size)
  let off1 ← s.parts.c1.members
  let off2 ← s.parts.c2.members
  asrt (off1 + s.parts.c1.size = off2)
  pure (s.parts.c1, s.parts.c2, { b with store := s.parts.store, marks := s.parts.marks, idx1 := s.knn1, idx2 := s.knn2, edges1 := e1, edges2 := e2 })

/-- `iscc_hi_break_cluster_into_two`, src/hierarchical_clustering.c:454-581, with the assertions of lines 462, 464 and 471, and those of `iscc_hi_populate_edge_lists`
(lines 810, 812 and 813). -/
def breakClusterDbg (cfg : Cfg) (hi : HiEnv F) (spi : Spi F) (ids : HiIds) (S : Nat) (batch : Bool) (c : HiItem) (b : HiBufs F) :
    M (Except ErrorCode (HiItem × HiItem × HiBufs F)) := do
  asrtM (u32 (2 * S) ≤ c.size)
  asrtM (spi.valid = true)
  asrtM (2 ≤ S)
  match ← findCentersDbg cfg spi ids c b with
  | .error e => pure (.error e)
  | .ok (c, b, center1, center2) => do
    asrtM (4 ≤ c.size)
    asrtM (center1 ≠ center2)
    asrtM (spi.valid = true)
    let off ← useK [] c.members
    touch [ids.dists]
    match ← spi.distRows 2 (some ⟨[], Buf.ofList [center1, center2]⟩) c.size (some ⟨[ids.store], b.store.drop off⟩) b.dists with
    | none => fail .distSearch "src/hierarchical_clustering.c" 828
    | some dists => do
      let r ← useK ids.all (splitClusterDbg cfg hi S batch c center1 center2 { b with dists := dists })
      pure (.ok r)

/-- `iscc_hi_check_capacity`, src/hierarchical_clustering.c:420-438, with the assertion of line 423. -/
def checkCapacityDbg (cfg : Cfg) (st : HiStack) : M (Except ErrorCode HiStack) := do
  asrtM (st.items ≤ st.capacity)
  checkCapacity cfg st

/-- One round of the main loop, src/hierarchical_clustering.c:380-411, with the assertion of `iscc_hi_push_to_stack` (line 445). -/
def hiStepDbg (cfg : Cfg) (hi : HiEnv F) (spi : Spi F) (ids : HiIds) (lids : List Nat) (S : Nat) (batch : Bool) (r : HiRun F) : M (Option ErrorCode × HiRun F) := do
  match ← checkCapacityDbg cfg r.stack with
  | .error e => pure (some e, r)
  | .ok stack => do
    let r := { r with stack := stack }
    let c ← useK [stack.clusters.id] (stack.clusters.buf.get (stack.items - 1))
    if c.size < u32 (2 * S) then
      if 0 < c.size then
        if r.next = cfg.clabelMax then do
          let e ← mkErr .tooLarge "src/hierarchical_clustering.c" 390 (some "Too many clusters (adjust the `scc_Clabel` type).")
          pure (some e, r)
        else do
          let labels ← useK (ids.store :: lids) (labelCluster r.bufs.store c r.next r.labels)
          pure (none, { r with labels := labels, next := r.next + 1, stack := { stack with items := stack.items - 1 } })
      else pure (none, { r with stack := { stack with items := stack.items - 1 } })
    else do
      asrtM (stack.items ≤ stack.capacity)
      match ← breakClusterDbg cfg hi spi ids S batch c r.bufs with
      | .error e => pure (some e, r)
      | .ok (c1, c2, bufs) => do
        let clusters ← useK [stack.clusters.id] (do
          let b ← stack.clusters.buf.set (stack.items - 1) c1
          b.set stack.items c2)
        pure (none, { r with bufs := bufs, stack := { stack with items := stack.items + 1, clusters := ⟨stack.clusters.id, clusters⟩ } })

/-- The main loop, src/hierarchical_clustering.c:378-416. It ends without an error only when the stack is empty, which is the assertion of line 414. -/
def hiLoopDbg (cfg : Cfg) (hi : HiEnv F) (spi : Spi F) (ids : HiIds) (lids : List Nat) (S : Nat) (batch : Bool) : Nat → HiRun F → M (ErrorCode × HiRun F)
  | 0, _ => fun _ => none
  | fuel + 1, r => do
    if r.stack.items = 0 then pure (.ok, r)
    else do
      match ← hiStepDbg cfg hi spi ids lids S batch r with
      | (some e, r) => pure (e, r)
      | (none, r) => hiLoopDbg cfg hi spi ids lids S batch fuel r

/-- `iscc_hi_empty_cl_stack`, src/hierarchical_clustering.c:269-301, with the assertions of lines 272 and 288. -/
def emptyStackDbg (cfg : Cfg) (hi : HiEnv F) (n : Nat) : M (Except ErrorCode (HiStack × Blk Nat × Nat)) := do
  asrtM (2 ≤ n)
  let cap := 1 + hi.logCap 20 n
  let clusters ← alloc (Buf.raw cap : Buf HiItem)
  let store ← alloc (Buf.raw n : Buf Nat)
  match clusters, store with
  | some cb, some sb => do
    asrtM (n ≤ cfg.pointMax)
    let s ← useK [sb.id] (forLt 0 n sb.buf fun i s => s.set i i)
    let c ← useK [cb.id] (cb.buf.set 0 ⟨n, 0, some 0⟩)
    pure (.ok (⟨cap, 1, ⟨cb.id, c⟩⟩, ⟨sb.id, s⟩, n))
  | cb, sb => hiStackFail cb sb 285

/-- `iscc_hi_init_cl_stack`, src/hierarchical_clustering.c:304-356, with the assertions of lines 308, 309 and 346. -/
def initStackDbg (cfg : Cfg) (hi : HiEnv F) (cl : Clustering) : M (Except ErrorCode (HiStack × Blk Nat × Nat)) := do
  asrtM (cl.isInitialized cfg = true)
  asrtM (2 ≤ cl.n)
  let cap := u64 (cl.numClusters + 1 + hi.logCap 10 cl.n)
  if cfg.sizeMax < cap then fail .tooLarge "src/hierarchical_clustering.c" 315 (some "Too many clusters.")
  else do
    let clusters ← alloc (Buf.fill cap ⟨0, 0, none⟩ : Buf HiItem)
    let store ← alloc (Buf.raw cl.n : Buf Nat)
    match clusters, store with
    | some cb, some sb => do
      let (c, s, largest) ← useK (cb.id :: sb.id :: ptrIds cl.label) (do
        let c ← countItems cfg cl.n (ptrBuf cl.label) cb.buf
        let (c, largest) ← placeItems cl.numClusters c
        asrt (cl.n ≤ cfg.pointMax)
        let (c, s) ← storeItems cfg cl.n (ptrBuf cl.label) c sb.buf
        pure (c, s, largest))
      pure (.ok (⟨cap, cl.numClusters, ⟨cb.id, c⟩⟩, ⟨sb.id, s⟩, largest))
    | cb, sb => hiStackFail cb sb 326

/-- The stack for a clustering, src/hierarchical_clustering.c:202-220. -/
def makeStackDbg (cfg : Cfg) (hi : HiEnv F) (cl : Clustering) : M (Except ErrorCode (HiStack × Blk Nat × Nat)) :=
  if cl.numClusters = 0 then emptyStackDbg cfg hi cl.n else initStackDbg cfg hi cl

/-- The main loop with the work area, src/hierarchical_clustering.c:237-249, with the assertions at the start of `iscc_hi_run_hierarchical_clustering` (lines 367, 368, 371-373 and 375). -/
def hiWorkDbg (cfg : Cfg) (hi : HiEnv F) (spi : Spi F) (S : Nat) (batch : Bool) (cl : Clustering) (stack : HiStack) (store : Blk Nat)
    (i1 i2 : Option (Blk Nat)) (d : Option (Blk F)) (m : Option (Blk Nat)) (e1 e2 : Option (Blk (Nat × F))) : M (ErrorCode × Clustering × Blk HiItem) :=
  match i1, i2, d, m, e1, e2 with
  | some i1, some i2, some d, some m, some e1, some e2 => do
    asrtM (0 < stack.items)
    asrtM (stack.items ≤ stack.capacity)
    asrtM (cl.isInitialized cfg = true)
    asrtM (spi.valid = true)
    asrtM (spi.numPoints = cl.n)
    asrtM (2 ≤ S)
    let (ec, r) ← hiLoopDbg cfg hi spi ⟨store.id, i1.id, i2.id, d.id, m.id, e1.id, e2.id⟩ (ptrIds cl.label) S batch (2 * cl.n + stack.items + 1)
      ⟨stack, ⟨store.buf, i1.buf, i2.buf, d.buf, m.buf, e1.buf, e2.buf⟩, ptrBuf cl.label, 0⟩
    pure (ec, { cl with label := ptrSet cl.label r.labels, numClusters := if ec = .ok then r.next else cl.numClusters }, r.stack.clusters)
  | _, _, _, _, _, _ => do
    let e ← mkErr .noMemory "src/hierarchical_clustering.c" 240
    pure (e, cl, stack.clusters)

/-- The work area, the main loop and the end of the call, src/hierarchical_clustering.c:222-261, with the assertion of line 222. -/
def hiMainDbg (cfg : Cfg) (hi : HiEnv F) (spi : Spi F) (S : Nat) (batch : Bool) (cl : Clustering) (stack : HiStack) (store : Blk Nat) (largest : Nat) : M (ErrorCode × Clustering) := do
  asrtM (0 < stack.items)
  let i1 ← alloc (Buf.raw (hiIdxLen S) : Buf Nat)
  let i2 ← alloc (Buf.raw (hiIdxLen S) : Buf Nat)
  let d ← alloc (Buf.raw (hiDistLen cfg largest) : Buf F)
  let m ← alloc (Buf.fill cl.n 0 : Buf Nat)
  let e1 ← alloc (Buf.raw largest : Buf (Nat × F))
  let e2 ← alloc (Buf.raw largest : Buf (Nat × F))
  let (ec, cl, clusters) ← hiWorkDbg cfg hi spi S batch cl stack store i1 i2 d m e1 e2
  freePtr i1
  freePtr i2
  freePtr d
  freePtr m
  freePtr e1
  freePtr e2
  freeId clusters.id
  freeId store.id
  pure (ec, cl)

/-- `scc_hierarchical_clustering` after the checks, src/hierarchical_clustering.c:202-261. -/
def hiClusterDbg (cfg : Cfg) (hi : HiEnv F) (spi : Spi F) (S : Nat) (batch : Bool) (cl : Clustering) : M (ErrorCode × Clustering) := do
  let (ok, cl) ← hiLabels cl
  if !ok then do
    let e ← mkErr .noMemory "src/hierarchical_clustering.c" 209
    pure (e, cl)
  else do
    match ← makeStackDbg cfg hi cl with
    | .error e => pure (e, cl)
    | .ok (stack, store, largest) => hiMainDbg cfg hi spi S batch cl stack store largest

/-- `scc_hierarchical_clustering`, src/hierarchical_clustering.c:181-262, in a build with assertions. -/
def hierarchicalDbg (cfg : Cfg) (hi : HiEnv F) (spi : Spi F) (S : Nat) (batch : Bool) (p : Option ClObj) : M (ErrorCode × Option ClObj) := do
  let ok ← isInitialized cfg p
  match ok, p with
  | true, some ob =>
    match hiArgsError spi ob.cl S with
    | some (ec, line, msg) => do
      let e ← mkErr ec "src/hierarchical_clustering.c" line (some msg)
      pure (e, some ob)
    | none => do
      let (e, cl) ← hiClusterDbg cfg hi spi S batch ob.cl
      touch [ob.id]
      pure (e, some ⟨ob.id, cl⟩)
  | _, p => do
    let e ← mkErr .invalidInput "src/hierarchical_clustering.c" 187 (some "Invalid clustering object.")
    pure (e, p)

end Scc
