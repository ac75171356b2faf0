/-
Model of src/hierarchical_clustering.c.
-/
import Verif.Model.NngClustering

namespace Scc

variable {F : Type} [FloatOps F]

/-- What the code takes from the C library: `qsort` on edges with the comparison of `iscc_hi_compare_dist_edges`, and the truncated value of
`k * log2(n)`, which only determines the initial capacity of the stack (src/hierarchical_clustering.c:275 and 313). -/
structure HiEnv (F : Type) where
  qsort : List (Nat × F) → List (Nat × F)
  logCap : Nat → Nat → Nat

/-- `ISCC_HI_NUM_TO_CHECK`, src/hierarchical_clustering.c:35. -/
def hiNumToCheck : Nat := 100

/-- `iscc_hi_ClusterItem`, src/hierarchical_clustering.c:50-54. The pointer `members` always points into the store of the stack and is modelled by the
offset from its start (`none` is NULL). -/
structure HiItem where
  size : Nat
  marker : Nat
  members : Option Nat

/-- The arrays that clusters are broken with: the store of the stack (src/hierarchical_clustering.c:61) and the work area (src/hierarchical_clustering.c:65-72).
An edge (src/hierarchical_clustering.c:43-47) is modelled by its head and distance here; the `next_dist` pointers are made anew by `sortEdges`. -/
structure HiBufs (F : Type) where
  store : Buf Nat
  idx1 : Buf Nat
  idx2 : Buf Nat
  dists : Buf F
  marks : Buf Nat
  edges1 : Buf (Nat × F)
  edges2 : Buf (Nat × F)

/-- The heap blocks of these arrays. -/
structure HiIds where
  store : Nat
  idx1 : Nat
  idx2 : Nat
  dists : Nat
  marks : Nat
  edges1 : Nat
  edges2 : Nat

/-- All blocks. -/
def HiIds.all (i : HiIds) : List Nat := [i.store, i.idx1, i.idx2, i.dists, i.marks, i.edges1, i.edges2]

/-! ### Markers -/

/-- `iscc_hi_get_next_marker`, src/hierarchical_clustering.c:584-601: the changed cluster (whose marker is the result) and the markers. -/
def nextMarker (cfg : Cfg) (store : Buf Nat) (c : HiItem) (marks : Buf Nat) : Option (HiItem × Buf Nat) := do
  if c.marker = cfg.fast16Max then do
    let off ← c.members
    let marks ← forLt 0 c.size marks fun i marks => do
      let x ← store.get (off + i)
      marks.set x 0
    pure ({ c with marker := 1 }, marks)
  else pure ({ c with marker := c.marker + 1 }, marks)

/-! ### Centers -/

/-- The number of points to check first and the distance between their positions, src/hierarchical_clustering.c:753-757. -/
def checkStep (size : Nat) : Nat := if size / hiNumToCheck < 2 then 2 else size / hiNumToCheck

def checkCount (cfg : Cfg) (size : Nat) : Nat :=
  let k := (1 + (size - 1) / checkStep size) % (cfg.fast16Max + 1)
  if hiNumToCheck < k then hiNumToCheck else k

/-- The points to check first, src/hierarchical_clustering.c:760-763. -/
def firstToCheck (store : Buf Nat) (off step count marker : Nat) (toCheck marks : Buf Nat) : Option (Buf Nat × Buf Nat) :=
  forLt 0 count (toCheck, marks) fun i (toCheck, marks) => do
    let x ← store.get (off + i * step)
    let toCheck ← toCheck.set i x
    let marks ← marks.set x marker
    pure (toCheck, marks)

/-- State of the search for centers: the points to check, the markers, the number of points for the next round, the largest distance so far and the centers. -/
structure CenterSt (F : Type) where
  toCheck : Buf Nat
  marks : Buf Nat
  count : Nat
  maxDist : F
  center1 : Nat
  center2 : Nat

/-- The centers are replaced by a pair at larger distance, src/hierarchical_clustering.c:779-783. -/
def centerMax (maxI : Buf Nat) (maxD : Buf F) (i : Nat) (st : CenterSt F) : Option (CenterSt F) := do
  let d ← maxD.get i
  if FloatOps.lt st.maxDist d then do
    let x ← st.toCheck.get i
    let y ← maxI.get i
    pure { st with maxDist := d, center1 := x, center2 := y }
  else pure st

/-- Body of the loop over the results of a round, src/hierarchical_clustering.c:778-790. -/
def centerStep (marker : Nat) (maxI : Buf Nat) (maxD : Buf F) (i : Nat) (st : CenterSt F) : Option (CenterSt F) := do
  let st ← centerMax maxI maxD i st
  let y ← maxI.get i
  let m ← st.marks.get y
  if m ≠ marker then do
    let marks ← st.marks.set y marker
    let toCheck ← st.toCheck.set st.count y
    pure { st with marks := marks, toCheck := toCheck, count := st.count + 1 }
  else pure st

/-- The loop `while (num_to_check > 0)`, src/hierarchical_clustering.c:771-793, with a bound on the number of rounds (`none` when it is exhausted). On failure the
object is closed and the error is raised. The result is the state and the arrays for the results. -/
def centerLoop (spi : Spi F) (ids : HiIds) (obj : spi.MD) (marker : Nat) : Nat → CenterSt F → Buf Nat → Buf F → M (Except ErrorCode (CenterSt F × Buf Nat × Buf F))
  | 0, _, _, _ => fun _ => none
  | fuel + 1, st, maxI, maxD => do
    if st.count = 0 then pure (.ok (st, maxI, maxD))
    else do
      touch [ids.idx2, ids.dists]
      match ← spi.maxDist obj st.count (some ⟨[ids.idx1], st.toCheck⟩) maxI maxD with
      | none => do
        let _ ← spi.maxClose obj
        fail .distSearch "src/hierarchical_clustering.c" 774
      | some (maxI, maxD) => do
        let st ← useK ids.all (forLt 0 st.count { st with count := 0 } (centerStep marker maxI maxD))
        centerLoop spi ids obj marker fuel st maxI maxD

/-- `iscc_hi_find_centers`, src/hierarchical_clustering.c:728-800: the changed cluster, the arrays and the centers. The initial values of the centers are those
of src/hierarchical_clustering.c:475. -/
def findCenters (cfg : Cfg) (spi : Spi F) (ids : HiIds) (c : HiItem) (b : HiBufs F) : M (Except ErrorCode (HiItem × HiBufs F × Nat × Nat)) := do
  let (c, off, toCheck, marks) ← useK ids.all (do
    let (c, marks) ← nextMarker cfg b.store c b.marks
    let off ← c.members
    let (toCheck, marks) ← firstToCheck b.store off (checkStep c.size) (checkCount cfg c.size) c.marker b.idx1 marks
    pure (c, off, toCheck, marks))
  match ← spi.maxInit c.size (some ⟨[ids.store], b.store.drop off⟩) with
  | none => fail .distSearch "src/hierarchical_clustering.c" 767
  | some obj => do
    match ← centerLoop spi ids obj c.marker (c.size + 1) ⟨toCheck, marks, checkCount cfg c.size, FloatOps.negOne, cfg.pointMax, cfg.pointMax⟩ b.idx2 b.dists with
    | .error e => pure (.error e)
    | .ok (st, maxI, maxD) => do
      if ← spi.maxClose obj then
        pure (.ok (c, { b with idx1 := st.toCheck, idx2 := maxI, dists := maxD, marks := st.marks }, st.center1, st.center2))
      else fail .distSearch "src/hierarchical_clustering.c" 796

/-! ### Edge lists -/

/-- The comparison with which the edges are sorted gives a total preorder on the list: what `qsort` requires. Models src/hierarchical_clustering.c:869-878. -/
def Sortable (l : List (Nat × F)) : Prop :=
  ∀ a ∈ l, ∀ b ∈ l, ¬ (FloatOps.lt a.2 b.2 = true ∧ FloatOps.lt b.2 a.2 = true) ∧
    ∀ c ∈ l, FloatOps.lt b.2 a.2 = false → FloatOps.lt c.2 b.2 = false → FloatOps.lt c.2 a.2 = false

instance (l : List (Nat × F)) : Decidable (Sortable l) := by unfold Sortable; infer_instance

/-- The call of `qsort`, src/hierarchical_clustering.c:859. Sorting with an inconsistent comparison is undefined behaviour. -/
def sortList (hi : HiEnv F) (l : List (Nat × F)) : Option (List (Nat × F)) := if Sortable l then some (hi.qsort l) else none

/-- `iscc_hi_sort_edge_list`, src/hierarchical_clustering.c:838-866: the edges and their `next_dist` pointers (positions in the array; NULL is `none`). Row `r` of the distances is used.
The old `next_dist` pointers are not kept. -/
def sortEdges (hi : HiEnv F) (store : Buf Nat) (off size center : Nat) (dists : Buf F) (r : Nat) (edges : Buf (Nat × F)) :
    Option (Buf (Nat × F) × Buf (Option Nat)) := do
  let (edges, _) ← forLt 0 size (edges, 1) fun i (edges, w) => do
    let x ← store.get (off + i)
    if x = center then pure (edges, w)
    else do
      let d ← dists.get (r * size + i)
      let edges ← edges.set w (x, d)
      pure (edges, w + 1)
  let l ← (edges.drop 1).read (size - 1)
  let sorted ← sortList hi l
  let edges ← forLt 0 (size - 1) edges fun i edges => do
    let e ← sorted[i]?
    edges.set (1 + i) e
  let next ← forNe 0 (size - 1) (Buf.raw edges.len) fun i next => next.set i (some (i + 1))
  let next ← next.set (size - 1) none
  pure (edges, next)

/-- `iscc_hi_get_next_dist`, src/hierarchical_clustering.c:625-640, with a bound on the number of steps (`none` when it is exhausted): the position of the edge and the
changed pointers. -/
def nextDist (edges : Buf (Nat × F)) (marks : Buf Nat) (marker prev : Nat) : Nat → Buf (Option Nat) → Option (Nat × Buf (Option Nat))
  | 0, _ => none
  | fuel + 1, next => do
    let p ← next.get prev
    let p ← p
    let e ← edges.get p
    let m ← marks.get e.1
    if m = marker then do
      let q ← next.get p
      let next ← next.set prev q
      nextDist edges marks marker prev fuel next
    else pure (p, next)

/-- `iscc_hi_get_next_k_nn`, src/hierarchical_clustering.c:604-622: the position of the last edge, the changed pointers and the array of points. -/
def nextKnn (edges : Buf (Nat × F)) (marks : Buf Nat) (marker prev k : Nat) (next : Buf (Option Nat)) (out : Buf Nat) : Option (Nat × Buf (Option Nat) × Buf Nat) :=
  forLt 0 k (prev, next, out) fun i (prev, next, out) => do
    let (p, next) ← nextDist edges marks marker prev edges.len next
    let e ← edges.get p
    let out ← out.set i e.1
    pure (p, next, out)

/-! ### Breaking a cluster -/

/-- The store, the markers and the two new clusters. -/
structure HiParts where
  store : Buf Nat
  marks : Buf Nat
  c1 : HiItem
  c2 : HiItem

/-- `iscc_hi_move_point_to_cluster1`, src/hierarchical_clustering.c:643-657. -/
def moveTo1 (marker x : Nat) (p : HiParts) : Option HiParts := do
  let marks ← p.marks.set x marker
  let off ← p.c1.members
  let store ← p.store.set (off + p.c1.size) x
  pure { p with store := store, marks := marks, c1 := { p.c1 with size := p.c1.size + 1 } }

/-- `iscc_hi_move_point_to_cluster2`, src/hierarchical_clustering.c:660-675. Moving the pointer before the start of the store is undefined behaviour. -/
def moveTo2 (marker x : Nat) (p : HiParts) : Option HiParts := do
  let off ← p.c2.members
  if off = 0 then none
  else do
    let marks ← p.marks.set x marker
    let store ← p.store.set (off - 1) x
    pure { p with store := store, marks := marks, c2 := { p.c2 with size := p.c2.size + 1, members := some (off - 1) } }

/-- `iscc_hi_move_array_to_cluster1`, src/hierarchical_clustering.c:678-701. The size of the cluster is updated with each point and not at the end. -/
def moveArrTo1 (marker k : Nat) (ids : Buf Nat) (p : HiParts) : Option HiParts :=
  forNe 0 k p fun i p => do
    let x ← ids.get i
    moveTo1 marker x p

/-- `iscc_hi_move_array_to_cluster2`, src/hierarchical_clustering.c:704-725. The size of the cluster is updated with each point and not at the end. -/
def moveArrTo2 (marker k : Nat) (ids : Buf Nat) (p : HiParts) : Option HiParts :=
  forNe 0 k p fun i p => do
    let x ← ids.get i
    moveTo2 marker x p

/-- State of the assignment of points to the two clusters: positions of the last assigned edges, `next_dist` pointers, and arrays of nearest points. -/
structure HiSplit where
  parts : HiParts
  last1 : Nat
  last2 : Nat
  next1 : Buf (Option Nat)
  next2 : Buf (Option Nat)
  knn1 : Buf Nat
  knn2 : Buf Nat

/-- The search for the next `k` points in list 1: position of the last edge and new state. -/
def HiSplit.knn1of (e1 : Buf (Nat × F)) (marker k : Nat) (s : HiSplit) : Option (Nat × HiSplit) := do
  let (t, next, knn) ← nextKnn e1 s.parts.marks marker s.last1 k s.next1 s.knn1
  pure (t, { s with next1 := next, knn1 := knn })

/-- The same for list 2. -/
def HiSplit.knn2of (e2 : Buf (Nat × F)) (marker k : Nat) (s : HiSplit) : Option (Nat × HiSplit) := do
  let (t, next, knn) ← nextKnn e2 s.parts.marks marker s.last2 k s.next2 s.knn2
  pure (t, { s with next2 := next, knn2 := knn })

/-- The first `size_constraint` points of each cluster, src/hierarchical_clustering.c:521-536. -/
def splitFirst (e1 e2 : Buf (Nat × F)) (S marker : Nat) (s : HiSplit) : Option HiSplit := do
  let (t1, s) ← s.knn1of e1 marker (S - 1)
  let (t2, s) ← s.knn2of e2 marker (S - 1)
  let d1 ← e1.get t1
  let d2 ← e2.get t2
  if FloatOps.le d2.2 d1.2 then do
    let parts ← moveArrTo1 marker (S - 1) s.knn1 s.parts
    let s := { s with parts := parts, last1 := t1 }
    let (t2, s) ← s.knn2of e2 marker (S - 1)
    let parts ← moveArrTo2 marker (S - 1) s.knn2 s.parts
    pure { s with parts := parts, last2 := t2 }
  else do
    let parts ← moveArrTo2 marker (S - 1) s.knn2 s.parts
    let s := { s with parts := parts, last2 := t2 }
    let (t1, s) ← s.knn1of e1 marker (S - 1)
    let parts ← moveArrTo1 marker (S - 1) s.knn1 s.parts
    pure { s with parts := parts, last1 := t1 }

/-- One round of the batch assignment, src/hierarchical_clustering.c:546-557. -/
def splitBatch (e1 e2 : Buf (Nat × F)) (marker k : Nat) (s : HiSplit) : Option HiSplit := do
  let (t1, s) ← s.knn1of e1 marker k
  let (t2, s) ← s.knn2of e2 marker k
  let d1 ← e1.get t1
  let d2 ← e2.get t2
  if FloatOps.le d1.2 d2.2 then do
    let parts ← moveArrTo1 marker k s.knn1 s.parts
    pure { s with parts := parts, last1 := t1 }
  else do
    let parts ← moveArrTo2 marker k s.knn2 s.parts
    pure { s with parts := parts, last2 := t2 }

/-- The loop of the batch assignment, src/hierarchical_clustering.c:543-558, with a bound on the number of rounds (`none` when it is exhausted). `k` is `num_assign_in_batch`. -/
def splitBatches (e1 e2 : Buf (Nat × F)) (marker : Nat) : Nat → Nat → Nat → HiSplit → Option HiSplit
  | 0, _, _, _ => none
  | fuel + 1, left, k, s => do
    if left = 0 then pure s
    else do
      let k := if left < k then left else k
      let s ← splitBatch e1 e2 marker k s
      splitBatches e1 e2 marker fuel (left - k) k s

/-- One round of the assignment of single points, src/hierarchical_clustering.c:562-571. -/
def splitSingle (e1 e2 : Buf (Nat × F)) (marker : Nat) (s : HiSplit) : Option HiSplit := do
  let (t1, next1) ← nextDist e1 s.parts.marks marker s.last1 e1.len s.next1
  let (t2, next2) ← nextDist e2 s.parts.marks marker s.last2 e2.len s.next2
  let s := { s with next1 := next1, next2 := next2 }
  let d1 ← e1.get t1
  let d2 ← e2.get t2
  if FloatOps.le d1.2 d2.2 then do
    let parts ← moveTo1 marker d1.1 s.parts
    pure { s with parts := parts, last1 := t1 }
  else do
    let parts ← moveTo2 marker d2.1 s.parts
    pure { s with parts := parts, last2 := t2 }

/-- The points that are left, src/hierarchical_clustering.c:542-573. -/
def splitRest (e1 e2 : Buf (Nat × F)) (S marker left : Nat) (batch : Bool) (s : HiSplit) : Option HiSplit :=
  if batch then splitBatches e1 e2 marker (left + 1) left S s else forLt 0 left s fun _ s => splitSingle e1 e2 marker s

/-- `iscc_hi_populate_edge_lists` after the distances are there (src/hierarchical_clustering.c:831-832), and `iscc_hi_break_cluster_into_two`
from src/hierarchical_clustering.c:494 on: the two clusters and the arrays. -/
def splitCluster (cfg : Cfg) (hi : HiEnv F) (S : Nat) (batch : Bool) (c : HiItem) (center1 center2 : Nat) (b : HiBufs F) : Option (HiItem × HiItem × HiBufs F) := do
  let off ← c.members
  let (e1, next1) ← sortEdges hi b.store off c.size center1 b.dists 0 b.edges1
  let (e2, next2) ← sortEdges hi b.store off c.size center2 b.dists 1 b.edges2
  let (c, marks) ← nextMarker cfg b.store c b.marks
  let size := c.size
  let parts : HiParts := ⟨b.store, marks, { c with size := 0 }, ⟨0, c.marker, some (off + size)⟩⟩
  let parts ← moveTo1 c.marker center1 parts
  let parts ← moveTo2 c.marker center2 parts
  let s ← splitFirst e1 e2 S c.marker ⟨parts, 0, 0, next1, next2, b.idx1, b.idx2⟩
  let s ← splitRest e1 e2 S c.marker (size - u32 (2 * S)) batch s
  pure (s.parts.c1, s.parts.c2, { b with store := s.parts.store, marks := s.parts.marks, idx1 := s.knn1, idx2 := s.knn2, edges1 := e1, edges2 := e2 })

/-- `iscc_hi_break_cluster_into_two`, src/hierarchical_clustering.c:454-581, with the call of `iscc_get_dist_rows` of `iscc_hi_populate_edge_lists`
(src/hierarchical_clustering.c:803-829). -/
def breakCluster (cfg : Cfg) (hi : HiEnv F) (spi : Spi F) (ids : HiIds) (S : Nat) (batch : Bool) (c : HiItem) (b : HiBufs F) :
    M (Except ErrorCode (HiItem × HiItem × HiBufs F)) := do
  match ← findCenters cfg spi ids c b with
  | .error e => pure (.error e)
  | .ok (c, b, center1, center2) => do
    let off ← useK [] c.members
    touch [ids.dists]
    match ← spi.distRows 2 (some ⟨[], Buf.ofList [center1, center2]⟩) c.size (some ⟨[ids.store], b.store.drop off⟩) b.dists with
    | none => fail .distSearch "src/hierarchical_clustering.c" 828
    | some dists => do
      let r ← useK ids.all (splitCluster cfg hi S batch c center1 center2 { b with dists := dists })
      pure (.ok r)

/-! ### The stack of clusters -/

/-- `iscc_hi_ClusterStack`, src/hierarchical_clustering.c:57-62, without the store. -/
structure HiStack where
  capacity : Nat
  items : Nat
  clusters : Blk HiItem

/-- `iscc_hi_check_capacity`, src/hierarchical_clustering.c:420-438. -/
def checkCapacity (cfg : Cfg) (st : HiStack) : M (Except ErrorCode HiStack) := do
  if st.items = st.capacity then do
    let cap := (st.capacity + 16 + st.capacity / 16) % (cfg.sizeMax + 1)
    if cfg.sizeMax < cap ∨ cap < st.capacity then fail .tooLarge "src/hierarchical_clustering.c" 429 (some "Too many clusters.")
    else do
      match ← reallocBlk st.clusters cap with
      | none => fail .noMemory "src/hierarchical_clustering.c" 432
      | some b => pure (.ok { st with capacity := cap, clusters := b })
  else pure (.ok st)

/-- The labels of a finished cluster, src/hierarchical_clustering.c:392-394. -/
def labelCluster (store : Buf Nat) (c : HiItem) (label : Nat) (labels : Buf Int) : Option (Buf Int) := do
  let off ← c.members
  forLt 0 c.size labels fun v labels => do
    let x ← store.get (off + v)
    labels.set x label

/-- State of the main loop: stack, arrays, labels and the next label. -/
structure HiRun (F : Type) where
  stack : HiStack
  bufs : HiBufs F
  labels : Buf Int
  next : Nat

/-- One round of the main loop of `iscc_hi_run_hierarchical_clustering`, src/hierarchical_clustering.c:380-411, with `iscc_hi_push_to_stack` (src/hierarchical_clustering.c:441-451). The result says whether an error stops the loop. The cluster at the top of the stack is replaced
by the first part when it is broken; the new item is written when the parts are known. -/
def hiStep (cfg : Cfg) (hi : HiEnv F) (spi : Spi F) (ids : HiIds) (lids : List Nat) (S : Nat) (batch : Bool) (r : HiRun F) : M (Option ErrorCode × HiRun F) := do
  match ← checkCapacity cfg r.stack with
  | .error e => pure (some e, r)
  | .ok stack => do
    let r := { r with stack := stack }
    let c ← useK [stack.clusters.id] (stack.clusters.buf.get (stack.items - 1))
    if c.size < u32 (2 * S) then
      if 0 < c.size then
        if r.next = cfg.clabelMax then do
          let e ← mkErr .tooLarge "src/hierarchical_clustering.c" 390 (some "Too many clusters (adjust the `scc_Clabel` type).")
          pure (some e, r)
        else do
          let labels ← useK (ids.store :: lids) (labelCluster r.bufs.store c r.next r.labels)
          pure (none, { r with labels := labels, next := r.next + 1, stack := { stack with items := stack.items - 1 } })
      else pure (none, { r with stack := { stack with items := stack.items - 1 } })
    else do
      match ← breakCluster cfg hi spi ids S batch c r.bufs with
      | .error e => pure (some e, r)
      | .ok (c1, c2, bufs) => do
        let clusters ← useK [stack.clusters.id] (do
          let b ← stack.clusters.buf.set (stack.items - 1) c1
          b.set stack.items c2)
        pure (none, { r with bufs := bufs, stack := { stack with items := stack.items + 1, clusters := ⟨stack.clusters.id, clusters⟩ } })

/-- `iscc_hi_run_hierarchical_clustering`, src/hierarchical_clustering.c:359-417: the main loop, src/hierarchical_clustering.c:377-416, with a bound on the number of rounds (`none` when it is exhausted). -/
def hiLoop (cfg : Cfg) (hi : HiEnv F) (spi : Spi F) (ids : HiIds) (lids : List Nat) (S : Nat) (batch : Bool) : Nat → HiRun F → M (ErrorCode × HiRun F)
  | 0, _ => fun _ => none
  | fuel + 1, r => do
    if r.stack.items = 0 then pure (.ok, r)
    else do
      match ← hiStep cfg hi spi ids lids S batch r with
      | (some e, r) => pure (e, r)
      | (none, r) => hiLoop cfg hi spi ids lids S batch fuel r

/-- Free of the arrays when the stack cannot be made, src/hierarchical_clustering.c:282-286 and 323-327. -/
def hiStackFail (clusters : Option (Blk HiItem)) (store : Option (Blk Nat)) (line : Nat) : M (Except ErrorCode (HiStack × Blk Nat × Nat)) := do
  freePtr clusters
  freePtr store
  fail .noMemory "src/hierarchical_clustering.c" line

/-- `iscc_hi_empty_cl_stack`, src/hierarchical_clustering.c:269-301: the stack, its store and the size of the largest cluster. -/
def emptyStack (hi : HiEnv F) (n : Nat) : M (Except ErrorCode (HiStack × Blk Nat × Nat)) := do
  let cap := 1 + hi.logCap 20 n
  let clusters ← alloc (Buf.raw cap : Buf HiItem)
  let store ← alloc (Buf.raw n : Buf Nat)
  match clusters, store with
  | some cb, some sb => do
    let s ← useK [sb.id] (forLt 0 n sb.buf fun i s => s.set i i)
    let c ← useK [cb.id] (cb.buf.set 0 ⟨n, 0, some 0⟩)
    pure (.ok (⟨cap, 1, ⟨cb.id, c⟩⟩, ⟨sb.id, s⟩, n))
  | cb, sb => hiStackFail cb sb 285

/-- The item of the cluster with label `l`; a label without a place in the array is undefined behaviour. -/
def itemOf (clusters : Buf HiItem) (l : Int) : Option HiItem := if l < 0 then none else clusters.get l.toNat

/-- Number of members of each cluster, src/hierarchical_clustering.c:332-336. -/
def countItems (cfg : Cfg) (n : Nat) (labels : Buf Int) (clusters : Buf HiItem) : Option (Buf HiItem) :=
  forLt 0 n clusters fun i clusters => do
    let l ← labels.get i
    if l ≠ cfg.na then do
      let c ← itemOf clusters l
      clusters.set l.toNat { c with size := c.size + 1 }
    else pure clusters

/-- End of the members of each cluster, and the size of the largest cluster as the code computes it, src/hierarchical_clustering.c:338-344. -/
def placeItems (k : Nat) (clusters : Buf HiItem) : Option (Buf HiItem × Nat) := do
  let c0 ← clusters.get 0
  let clusters ← clusters.set 0 { c0 with members := some c0.size }
  forLt 1 k (clusters, 0) fun c (clusters, largest) => do
    let prev ← clusters.get (c - 1)
    let off ← prev.members
    let cur ← clusters.get c
    let clusters ← clusters.set c { cur with members := some (off + cur.size) }
    pure (clusters, if largest < cur.size then cur.size else largest)

/-- Members of each cluster, src/hierarchical_clustering.c:347-353. -/
def storeItems (cfg : Cfg) (n : Nat) (labels : Buf Int) (clusters : Buf HiItem) (store : Buf Nat) : Option (Buf HiItem × Buf Nat) :=
  forLt 0 n (clusters, store) fun i (clusters, store) => do
    let l ← labels.get i
    if l ≠ cfg.na then do
      let c ← itemOf clusters l
      let off ← c.members
      if off = 0 then none
      else do
        let clusters ← clusters.set l.toNat { c with members := some (off - 1) }
        let store ← store.set (off - 1) i
        pure (clusters, store)
    else pure (clusters, store)

/-- `iscc_hi_init_cl_stack`, src/hierarchical_clustering.c:304-356. -/
def initStack (cfg : Cfg) (hi : HiEnv F) (n k : Nat) (lids : List Nat) (labels : Buf Int) : M (Except ErrorCode (HiStack × Blk Nat × Nat)) := do
  let cap := u64 (k + 1 + hi.logCap 10 n)
  if cfg.sizeMax < cap then fail .tooLarge "src/hierarchical_clustering.c" 315 (some "Too many clusters.")
  else do
    let clusters ← alloc (Buf.fill cap ⟨0, 0, none⟩ : Buf HiItem)
    let store ← alloc (Buf.raw n : Buf Nat)
    match clusters, store with
    | some cb, some sb => do
      let (c, s, largest) ← useK (cb.id :: sb.id :: lids) (do
        let c ← countItems cfg n labels cb.buf
        let (c, largest) ← placeItems k c
        let (c, s) ← storeItems cfg n labels c sb.buf
        pure (c, s, largest))
      pure (.ok (⟨cap, k, ⟨cb.id, c⟩⟩, ⟨sb.id, s⟩, largest))
    | cb, sb => hiStackFail cb sb 326

/-- The stack for a clustering, src/hierarchical_clustering.c:202-224, after the label array is there. -/
def makeStack (cfg : Cfg) (hi : HiEnv F) (cl : Clustering) : M (Except ErrorCode (HiStack × Blk Nat × Nat)) :=
  if cl.numClusters = 0 then emptyStack hi cl.n else initStack cfg hi cl.n cl.numClusters (ptrIds cl.label) (ptrBuf cl.label)

/-- The main loop with the work area, if all of it is there, src/hierarchical_clustering.c:237-249. The result is the error code, the clustering and the block of the stack. -/
def hiWork (cfg : Cfg) (hi : HiEnv F) (spi : Spi F) (S : Nat) (batch : Bool) (cl : Clustering) (stack : HiStack) (store : Blk Nat)
    (i1 i2 : Option (Blk Nat)) (d : Option (Blk F)) (m : Option (Blk Nat)) (e1 e2 : Option (Blk (Nat × F))) : M (ErrorCode × Clustering × Blk HiItem) :=
  match i1, i2, d, m, e1, e2 with
  | some i1, some i2, some d, some m, some e1, some e2 => do
    let (ec, r) ← hiLoop cfg hi spi ⟨store.id, i1.id, i2.id, d.id, m.id, e1.id, e2.id⟩ (ptrIds cl.label) S batch (2 * cl.n + stack.items + 1)
      ⟨stack, ⟨store.buf, i1.buf, i2.buf, d.buf, m.buf, e1.buf, e2.buf⟩, ptrBuf cl.label, 0⟩
    pure (ec, { cl with label := ptrSet cl.label r.labels, numClusters := if ec = .ok then r.next else cl.numClusters }, r.stack.clusters)
  | _, _, _, _, _, _ => do
    let e ← mkErr .noMemory "src/hierarchical_clustering.c" 240
    pure (e, cl, stack.clusters)

/-- The lengths of the arrays of point indices and of distances, src/hierarchical_clustering.c:226-227. -/
def hiIdxLen (S : Nat) : Nat := if hiNumToCheck < S then S else hiNumToCheck

def hiDistLen (cfg : Cfg) (largest : Nat) : Nat :=
  if hiNumToCheck < (2 * largest) % (cfg.sizeMax + 1) then (2 * largest) % (cfg.sizeMax + 1) else hiNumToCheck

/-- The work area, the main loop and the end of the call, src/hierarchical_clustering.c:226-261. The result is the error code and the clustering. -/
def hiMain (cfg : Cfg) (hi : HiEnv F) (spi : Spi F) (S : Nat) (batch : Bool) (cl : Clustering) (stack : HiStack) (store : Blk Nat) (largest : Nat) : M (ErrorCode × Clustering) := do
  let i1 ← alloc (Buf.raw (hiIdxLen S) : Buf Nat)
  let i2 ← alloc (Buf.raw (hiIdxLen S) : Buf Nat)
  let d ← alloc (Buf.raw (hiDistLen cfg largest) : Buf F)
  let m ← alloc (Buf.fill cl.n 0 : Buf Nat)
  let e1 ← alloc (Buf.raw largest : Buf (Nat × F))
  let e2 ← alloc (Buf.raw largest : Buf (Nat × F))
  let (ec, cl, clusters) ← hiWork cfg hi spi S batch cl stack store i1 i2 d m e1 e2
  freePtr i1
  freePtr i2
  freePtr d
  freePtr m
  freePtr e1
  freePtr e2
  freeId clusters.id
  freeId store.id
  pure (ec, cl)

/-- The label array is allocated if the clustering has no clusters and no array, src/hierarchical_clustering.c:205-210. -/
def hiLabels (cl : Clustering) : M (Bool × Clustering) := if cl.numClusters = 0 then ensureLabels cl else pure (true, cl)

/-- `scc_hierarchical_clustering` after the checks, src/hierarchical_clustering.c:202-261. -/
def hiCluster (cfg : Cfg) (hi : HiEnv F) (spi : Spi F) (S : Nat) (batch : Bool) (cl : Clustering) : M (ErrorCode × Clustering) := do
  let (ok, cl) ← hiLabels cl
  if !ok then do
    let e ← mkErr .noMemory "src/hierarchical_clustering.c" 209
    pure (e, cl)
  else do
    match ← makeStack cfg hi cl with
    | .error e => pure (e, cl)
    | .ok (stack, store, largest) => hiMain cfg hi spi S batch cl stack store largest

/-- The error found by the checks of `scc_hierarchical_clustering`, src/hierarchical_clustering.c:189-200. -/
def hiArgsError (spi : Spi F) (cl : Clustering) (S : Nat) : Option (ErrorCode × Nat × String) :=
  if !spi.valid then some (.invalidInput, 190, "Invalid data set object.")
  else if spi.numPoints ≠ cl.n then some (.invalidInput, 193, "Number of data points in data set does not match clustering object.")
  else if S < 2 then some (.invalidInput, 196, "Size constraint must be 2 or greater.")
  else if cl.n < S then some (.noSolution, 199, "Fewer data points than size constraint.")
  else none

/-- `scc_hierarchical_clustering`, src/hierarchical_clustering.c:181-262. -/
def hierarchical (cfg : Cfg) (hi : HiEnv F) (spi : Spi F) (S : Nat) (batch : Bool) (p : Option ClObj) : M (ErrorCode × Option ClObj) := do
  let ok ← isInitialized cfg p
  match ok, p with
  | true, some ob =>
    match hiArgsError spi ob.cl S with
    | some (ec, line, msg) => do
      let e ← mkErr ec "src/hierarchical_clustering.c" line (some msg)
      pure (e, some ob)
    | none => do
      let (e, cl) ← hiCluster cfg hi spi S batch ob.cl
      touch [ob.id]
      pure (e, some ⟨ob.id, cl⟩)
  | _, p => do
    let e ← mkErr .invalidInput "src/hierarchical_clustering.c" 187 (some "Invalid clustering object.")
    pure (e, p)

end Scc
