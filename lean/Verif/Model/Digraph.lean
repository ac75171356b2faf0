/-
Model of src/digraph_core.c and src/digraph_operations.c.

A digraph is stored in compressed row form: the arcs of vertex `v` are `head[tail[v] .. tail[v+1])`.
Pointers into `head` are modelled by indices. `assert`s are not executed.
-/
import Verif.Base

namespace Scc

/-- `iscc_Digraph`, src/digraph_core.h:38-77. `none` is the NULL pointer. -/
structure Digraph where
  n : Nat
  maxArcs : Nat
  head : Option (Blk Nat)
  tail : Option (Blk Nat)

/-- Buffer behind a pointer; a NULL pointer gives the empty buffer, so that every access is undefined behaviour. -/
def ptrBuf {α : Type} : Option (Blk α) → Buf α
  | none => Buf.raw 0
  | some b => b.buf

/-- Identities of the blocks behind a pointer. -/
def ptrIds {α : Type} : Option (Blk α) → List Nat
  | none => []
  | some b => [b.id]

/-- The block behind a pointer with new contents. -/
def ptrSet {α : Type} (p : Option (Blk α)) (b : Buf α) : Option (Blk α) := p.map fun blk => ⟨blk.id, b⟩

/-- Blocks owned by a digraph. -/
def Digraph.own (d : Digraph) : Multiset Nat := ptrOwn d.head + ptrOwn d.tail
/-- Blocks of a digraph, as a list. -/
def Digraph.ids (d : Digraph) : List Nat := ptrIds d.head ++ ptrIds d.tail

/-- `ISCC_NULL_DIGRAPH`, src/digraph_core.h:84. -/
def Digraph.null : Digraph := ⟨0, 0, none, none⟩

/-! ### digraph_core.c -/

/-- `iscc_free_digraph`, src/digraph_core.c:37-44. The result is the value left in `*dg`. -/
def freeDigraph (d : Digraph) : M Digraph := do
  freePtr d.head
  freePtr d.tail
  pure Digraph.null

/-- `iscc_digraph_is_initialized`, src/digraph_core.c:47-54. -/
def digraphIsInitialized (cfg : Cfg) (d : Digraph) : Bool :=
  if d.tail.isNone then false
  else if cfg.pointMax < d.n ∨ cfg.arcMax < d.maxArcs then false
  else if d.maxArcs = 0 ∧ d.head.isSome then false
  else if 0 < d.maxArcs ∧ d.head.isNone then false
  else true

/-- `iscc_digraph_is_valid`, src/digraph_core.c:57-74. -/
def digraphIsValid (cfg : Cfg) (d : Digraph) : Option Bool :=
  if !digraphIsInitialized cfg d then some false
  else do
    let t := ptrBuf d.tail
    let t0 ← t.get 0
    if t0 ≠ 0 then pure false
    else do
      let tn ← t.get d.n
      if d.maxArcs < tn then pure false
      else do
        match ← forLtB 0 d.n () (fun i _ => do
            let a ← t.get i
            let b ← t.get (i + 1)
            if b < a then pure (Ctl.stop ()) else pure (Ctl.next ())) with
        | .stop _ => pure false
        | .next _ =>
          match ← forLtB 0 tn () (fun i _ => do
              let a ← (ptrBuf d.head).get i
              if d.n ≤ a then pure (Ctl.stop ()) else pure (Ctl.next ())) with
          | .stop _ => pure false
          | .next _ => pure true

/-- `iscc_digraph_is_empty`, src/digraph_core.c:77-81. -/
def digraphIsEmpty (d : Digraph) : Option Bool := do
  let m ← (ptrBuf d.tail).get d.n
  pure (m == 0)

/-- `iscc_init_digraph`, src/digraph_core.c:84-115. -/
def initDigraph (cfg : Cfg) (vertices maxArcs : Nat) : M (Except ErrorCode Digraph) := do
  if cfg.arcMax < maxArcs ∨ cfg.sizeMax < maxArcs then
    fail .tooLarge "src/digraph_core.c" 93 (some "Too many arcs in graph (adjust the `iscc_ArcIndex` type).")
  else do
    match ← alloc (Buf.raw (vertices + 1)) with
    | none => fail .noMemory "src/digraph_core.c" 102
    | some tail =>
      if 0 < maxArcs then do
        match ← alloc (Buf.raw maxArcs) with
        | none => do
          let _ ← freeDigraph ⟨vertices, maxArcs, none, some tail⟩
          fail .noMemory "src/digraph_core.c" 108
        | some head => pure (.ok ⟨vertices, maxArcs, some head, some tail⟩)
      else pure (.ok ⟨vertices, maxArcs, none, some tail⟩)

/-- `iscc_empty_digraph`, src/digraph_core.c:118-149. -/
def emptyDigraph (cfg : Cfg) (vertices maxArcs : Nat) : M (Except ErrorCode Digraph) := do
  if cfg.arcMax < maxArcs ∨ cfg.sizeMax < maxArcs then
    fail .tooLarge "src/digraph_core.c" 127 (some "Too many arcs in graph (adjust the `iscc_ArcIndex` type).")
  else do
    match ← alloc (Buf.fill (vertices + 1) 0) with
    | none => fail .noMemory "src/digraph_core.c" 136
    | some tail =>
      if 0 < maxArcs then do
        match ← alloc (Buf.raw maxArcs) with
        | none => do
          let _ ← freeDigraph ⟨vertices, maxArcs, none, some tail⟩
          fail .noMemory "src/digraph_core.c" 142
        | some head => pure (.ok ⟨vertices, maxArcs, some head, some tail⟩)
      else pure (.ok ⟨vertices, maxArcs, none, some tail⟩)

/-- `realloc` of the possibly NULL arc array: `realloc(NULL, ..)` is `malloc`. Used at src/digraph_core.c:167. -/
def reallocHead (p : Option (Blk Nat)) (n : Nat) : M (Option (Blk Nat)) :=
  match p with
  | none => alloc (Buf.raw n)
  | some b => reallocBlk b n

/-- `iscc_change_arc_storage`, src/digraph_core.c:152-174. Returns the error code and the updated `*dg`. -/
def changeArcStorage (cfg : Cfg) (d : Digraph) (newMax : Nat) : M (ErrorCode × Digraph) := do
  if cfg.arcMax < newMax ∨ cfg.sizeMax < newMax then
    let e ← mkErr .tooLarge "src/digraph_core.c" 158 (some "Too many arcs in graph (adjust the `iscc_ArcIndex` type).")
    pure (e, d)
  else if d.maxArcs = newMax then pure (.ok, d)
  else if newMax = 0 then do
    freePtr d.head
    pure (.ok, { d with head := none, maxArcs := 0 })
  else do
    match ← reallocHead d.head newMax with
    | none => do
      let e ← mkErr .noMemory "src/digraph_core.c" 168
      pure (e, d)
    | some h => pure (.ok, { d with head := some h, maxArcs := newMax })

/-! ### digraph_operations.c -/

/-- The loop `for (arc = head + tail[r]; arc != head + tail[r + 1]; ++arc) body(*arc)` that appears throughout
src/digraph_operations.c, src/nng_findseeds.c and src/nng_core.c. -/
def rowLoop {σ : Type} (head tail : Buf Nat) (r : Nat) (s : σ) (body : Nat → σ → Option σ) : Option σ := do
  let stop ← tail.get (r + 1)
  let start ← tail.get r
  forNe start stop s fun i s => do
    let a ← head.get i
    body a s

/-- The loops of `iscc_delete_loops`, src/digraph_operations.c:67-83: in-place compaction.
Returns the new arc and row arrays and the number of arcs left. -/
def deleteLoopsK (n : Nat) (head tail : Buf Nat) : Option (Buf Nat × Buf Nat × Nat) := do
  let (head, tail, hw) ← forLt 0 n (head, tail, 0) fun v (head, tail, hw) => do
    let start ← tail.get v
    let stop ← tail.get (v + 1)
    let tail ← tail.set v hw
    let (head, hw) ← forNe start stop (head, hw) fun i (head, hw) => do
      let a ← head.get i
      if a ≠ v then do
        let head ← head.set hw a
        pure (head, hw + 1)
      else pure (head, hw)
    pure (head, tail, hw)
  let tail ← tail.set n hw
  pure (head, tail, hw)

/-- `iscc_delete_loops`, src/digraph_operations.c:61-86. -/
def deleteLoops (cfg : Cfg) (d : Digraph) : M (ErrorCode × Digraph) := do
  if ← useK d.ids (digraphIsEmpty d) then pure (.ok, d)
  else do
    let (head, tail, hw) ← useK d.ids (deleteLoopsK d.n (ptrBuf d.head) (ptrBuf d.tail))
    changeArcStorage cfg { d with head := ptrSet d.head head, tail := ptrSet d.tail tail } hw

/-- Mutable state of the union and product loops: markers, output arrays and the counter. -/
structure UnionSt where
  rm : Buf Nat
  head : Buf Nat
  tail : Buf Nat
  cnt : Nat

/-- The innermost loop shared by all variants in `iscc_do_union_and_delete` (src/digraph_operations.c:340-347, 355-362,
370-378, 394-402) and `iscc_do_adjacency_product` (446-452, 458-466, 480-487, 493-502): scan row `r` of a digraph,
adding every vertex not yet marked with `v`. The C code repeats this loop; the model has it once. -/
def scanRow (write : Bool) (head tail : Buf Nat) (r v : Nat) (st : UnionSt) : Option UnionSt :=
  rowLoop head tail r st fun a st => do
    let m ← st.rm.get a
    if m ≠ v then do
      let rm ← st.rm.set a v
      let head ← if write then st.head.set st.cnt a else pure st.head
      pure { st with rm := rm, head := head, cnt := st.cnt + 1 }
    else pure st

/-- One output row of the union: `if (!keep_self_loops) row_markers[v] = v;` and then all input digraphs.
src/digraph_operations.c:338-348 and the three similar places. -/
def unionRow (keepLoops write : Bool) (dgs : List (Buf Nat × Buf Nat)) (v : Nat) (st : UnionSt) : Option UnionSt := do
  let rm ← if !keepLoops then st.rm.set v v else pure st.rm
  dgs.foldlM (fun st d => scanRow write d.1 d.2 v v st) { st with rm := rm }

/-- The test on the next tail to keep, src/digraph_operations.c:390-404: the row is written when `v` is the next kept tail. -/
def unionKeptRow (keepLoops : Bool) (dgs : List (Buf Nat × Buf Nat)) (v : Nat) (st : UnionSt) (next : List Nat) :
    Option (UnionSt × List Nat) :=
  match next with
  | [] => some (st, [])
  | t :: rest =>
    if t = v then do
      let st ← unionRow keepLoops true dgs v st
      pure (st, rest)
    else some (st, t :: rest)

/-- Initialising the markers with `ISCC_POINTINDEX_MAX_PI`; src/digraph_operations.c:332-334, 434-436, 165-167. -/
def initMarkers (cfg : Cfg) (n : Nat) (rm : Buf Nat) : Option (Buf Nat) :=
  forLt 0 n rm fun v rm => rm.set v cfg.pointMax

/-- `iscc_do_union_and_delete`, src/digraph_operations.c:303-411. `tails = none` is `tails_to_keep == NULL`;
a list stands for the `len_tails_to_keep` entries of the array. -/
def doUnion (cfg : Cfg) (n : Nat) (dgs : List (Buf Nat × Buf Nat)) (rm : Buf Nat) (tails : Option (List Nat))
    (keepLoops write : Bool) (outTail outHead : Buf Nat) : Option UnionSt := do
  let rm ← initMarkers cfg n rm
  let st : UnionSt := ⟨rm, outHead, outTail, 0⟩
  match tails, write with
  | none, false => forLt 0 n st fun v st => unionRow keepLoops false dgs v st
  | some ts, false => ts.foldlM (fun st v => unionRow keepLoops false dgs v st) st
  | none, true => do
    let tail ← st.tail.set 0 0
    forLt 0 n { st with tail := tail } fun v st => do
      let st ← unionRow keepLoops true dgs v st
      let tail ← st.tail.set (v + 1) st.cnt
      pure { st with tail := tail }
  | some ts, true => do
    let tail ← st.tail.set 0 0
    let (st, _) ← forLt 0 n ({ st with tail := tail }, ts) fun v (st, next) => do
      let (st, next) ← unionKeptRow keepLoops dgs v st next
      let tail ← st.tail.set (v + 1) st.cnt
      pure ({ st with tail := tail }, next)
    pure st

/-- Allocation of the output digraph, with storage for the greedy count, or, if that fails, for the exact count;
src/digraph_operations.c:115-131 (union) and 265-281 (product). -/
def allocOutput (cfg : Cfg) (n greedy rmId : Nat) (ids : List Nat) (count : Option UnionSt) : M (Except ErrorCode Digraph) := do
  match ← initDigraph cfg n greedy with
  | .ok d => pure (.ok d)
  | .error _ => do
    resetErr
    let st ← useK (rmId :: ids) count
    initDigraph cfg n st.cnt

/-- The part shared by union and product once the markers are allocated: allocate the output, fill it, free the
markers, shrink the storage. src/digraph_operations.c:114-143 (union) and 265-295 (product). -/
def buildDigraph (cfg : Cfg) (n greedy rmId : Nat) (ids : List Nat) (count : Option UnionSt)
    (write : Buf Nat → Buf Nat → Option UnionSt) : M (Except ErrorCode Digraph) := do
  match ← allocOutput cfg n greedy rmId ids count with
  | .error ec => do
    freeId rmId
    pure (.error ec)
  | .ok d => do
    let st ← useK (rmId :: d.ids ++ ids) (write (ptrBuf d.tail) (ptrBuf d.head))
    freeId rmId
    let (ec, d) ← changeArcStorage cfg { d with head := ptrSet d.head st.head, tail := ptrSet d.tail st.tail } st.cnt
    if ec ≠ .ok then do
      let _ ← freeDigraph d
      pure (.error ec)
    else pure (.ok d)

/-- Greedy arc count of the union: sum of the input arc counts, src/digraph_operations.c:103-109. -/
def unionGreedy (n : Nat) (dgs : List (Buf Nat × Buf Nat)) : Option Nat :=
  dgs.foldlM (fun c d => do let m ← d.2.get n; pure (c + m)) 0

/-- `iscc_digraph_union_and_delete`, src/digraph_operations.c:89-144. Reading `in_dgs[0]` of an empty array is
undefined behaviour. -/
def unionAndDelete (cfg : Cfg) (inDgs : List Digraph) (tails : Option (List Nat)) (keepLoops : Bool) :
    M (Except ErrorCode Digraph) := do
  let ids := inDgs.flatMap Digraph.ids
  let dgs := inDgs.map fun d => (ptrBuf d.head, ptrBuf d.tail)
  let vertices ← useK ids (inDgs.head?.map Digraph.n)
  let greedy ← useK ids (unionGreedy vertices dgs)
  match ← alloc (Buf.raw vertices) with
  | none => fail .noMemory "src/digraph_operations.c" 112
  | some rm => do
    buildDigraph cfg vertices greedy rm.id ids
      (doUnion cfg vertices dgs rm.buf tails keepLoops false (Buf.raw 0) (Buf.raw 0))
      (fun outTail outHead => doUnion cfg vertices dgs rm.buf tails keepLoops true outTail outHead)

/-- The loops of `iscc_digraph_difference`, src/digraph_operations.c:165-191. Returns the minuend's new arc and row
arrays and the number of arcs left. -/
def differenceK (cfg : Cfg) (n : Nat) (mHead mTail sHead sTail rm : Buf Nat) (maxOut : Nat) :
    Option (Buf Nat × Buf Nat × Nat) := do
  let rm ← initMarkers cfg n rm
  let (head, tail, _, w) ← forLt 0 n (mHead, mTail, rm, 0) fun v (head, tail, rm, w) => do
    let rm ← rowLoop sHead sTail v rm fun a rm => rm.set a v
    let start ← tail.get v
    let stop ← tail.get (v + 1)
    let tail ← tail.set v w
    -- `for (; row_counter < max_out_degree && arc_m != arc_m_stop; ++arc_m)`
    if stop < start then none
    else do
      let (head, _, w) ← forLt start stop (head, 0, w) fun i (head, rc, w) => do
        if rc < maxOut then do
          let a ← head.get i
          let m ← rm.get a
          if m ≠ v then do
            let head ← head.set w a
            pure (head, rc + 1, w + 1)
          else pure (head, rc, w)
        else pure (head, rc, w)
      pure (head, tail, rm, w)
  let tail ← tail.set n w
  pure (head, tail, w)

/-- `iscc_digraph_difference`, src/digraph_operations.c:147-196. -/
def digraphDifference (cfg : Cfg) (m s : Digraph) (maxOut : Nat) : M (ErrorCode × Digraph) := do
  if ← useK m.ids (digraphIsEmpty m) then pure (.ok, m)
  else do
    match ← alloc (Buf.raw m.n) with
    | none => do
      let e ← mkErr .noMemory "src/digraph_operations.c" 162
      pure (e, m)
    | some rm => do
      let (head, tail, w) ← useK (rm.id :: m.ids ++ s.ids)
        (differenceK cfg m.n (ptrBuf m.head) (ptrBuf m.tail) (ptrBuf s.head) (ptrBuf s.tail) rm.buf maxOut)
      freeId rm.id
      changeArcStorage cfg { m with head := ptrSet m.head head, tail := ptrSet m.tail tail } w

/-- The loops of `iscc_digraph_transpose`, src/digraph_operations.c:216-234. Returns the output's arc and row arrays. -/
def transposeK (n : Nat) (head tail outHead outTail : Buf Nat) : Option (Buf Nat × Buf Nat) := do
  let total ← tail.get n
  let outTail ← forNe 0 total outTail fun i outTail => do
    let a ← head.get i
    let c ← outTail.get a
    outTail.set a (c + 1)
  let outTail ← forLt 0 n outTail fun v outTail => do
    let a ← outTail.get (v + 1)
    let b ← outTail.get v
    outTail.set (v + 1) (a + b)
  forLt 0 n (outHead, outTail) fun v (outHead, outTail) =>
    rowLoop head tail v (outHead, outTail) fun a (outHead, outTail) => do
      let c ← outTail.get a
      -- `--out_dg->tail_ptr[*arc]` on an unsigned zero would wrap and the store be out of bounds
      if c = 0 then none
      else do
        let outTail ← outTail.set a (c - 1)
        let outHead ← outHead.set (c - 1) v
        pure (outHead, outTail)

/-- `iscc_digraph_transpose`, src/digraph_operations.c:199-237. -/
def digraphTranspose (cfg : Cfg) (d : Digraph) : M (Except ErrorCode Digraph) := do
  let total ← useK d.ids ((ptrBuf d.tail).get d.n)
  match ← emptyDigraph cfg d.n total with
  | .error ec => pure (.error ec)
  | .ok o => do
    if ← useK d.ids (digraphIsEmpty d) then pure (.ok o)
    else do
      let (h, t) ← useK (d.ids ++ o.ids) (transposeK d.n (ptrBuf d.head) (ptrBuf d.tail) (ptrBuf o.head) (ptrBuf o.tail))
      pure (.ok { o with head := ptrSet o.head h, tail := ptrSet o.tail t })

/-- One output row of the product, src/digraph_operations.c:440-467 and 474-503. -/
def productRow (force write : Bool) (aHead aTail bHead bTail : Buf Nat) (v : Nat) (st : UnionSt) : Option UnionSt := do
  let rm ← st.rm.set v v
  let st := { st with rm := rm }
  let st ← if force then scanRow write bHead bTail v v st else pure st
  rowLoop aHead aTail v st fun a st => scanRow write bHead bTail a v st

/-- `iscc_do_adjacency_product`, src/digraph_operations.c:414-506. -/
def doProduct (cfg : Cfg) (n : Nat) (aHead aTail bHead bTail rm : Buf Nat) (force write : Bool) (outTail outHead : Buf Nat) :
    Option UnionSt := do
  let rm ← initMarkers cfg n rm
  let st : UnionSt := ⟨rm, outHead, outTail, 0⟩
  if !write then forLt 0 n st fun v st => productRow force false aHead aTail bHead bTail v st
  else do
    let tail ← st.tail.set 0 0
    forLt 0 n { st with tail := tail } fun v st => do
      let st ← productRow force true aHead aTail bHead bTail v st
      let tail ← st.tail.set (v + 1) st.cnt
      pure { st with tail := tail }

/-- Greedy arc count of the product, src/digraph_operations.c:258-263. -/
def productGreedy (n : Nat) (aHead aTail bTail : Buf Nat) (force : Bool) : Option Nat := do
  let total ← aTail.get n
  let c ← forNe 0 total 0 fun i c => do
    let a ← aHead.get i
    let hi ← bTail.get (a + 1)
    let lo ← bTail.get a
    -- unsigned subtraction; negative only if the row array is not monotone
    if hi < lo then none else pure (c + (hi - lo))
  if force then do
    let m ← bTail.get n
    pure (c + m)
  else pure c

/-- `iscc_adjacency_product`, src/digraph_operations.c:240-296. -/
def adjacencyProduct (cfg : Cfg) (a b : Digraph) (force : Bool) : M (Except ErrorCode Digraph) := do
  let ids := a.ids ++ b.ids
  let vertices := a.n
  match ← alloc (Buf.raw vertices) with
  | none => fail .noMemory "src/digraph_operations.c" 256
  | some rm => do
    let greedy ← useK ids (productGreedy vertices (ptrBuf a.head) (ptrBuf a.tail) (ptrBuf b.tail) force)
    buildDigraph cfg vertices greedy rm.id ids
      (doProduct cfg vertices (ptrBuf a.head) (ptrBuf a.tail) (ptrBuf b.head) (ptrBuf b.tail) rm.buf force false
        (Buf.raw 0) (Buf.raw 0))
      (fun outTail outHead => doProduct cfg vertices (ptrBuf a.head) (ptrBuf a.tail) (ptrBuf b.head) (ptrBuf b.tail) rm.buf force
        true outTail outHead)

end Scc
