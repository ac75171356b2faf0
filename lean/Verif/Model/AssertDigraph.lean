/-
Model of src/digraph_core.c and src/digraph_operations.c as built with `--enable-assert`: the functions of Model/Digraph.lean with the assertions in their places.

Assertions that a pointer is not NULL are left out where the pointer is a parameter that is not optional in the model (src/digraph_core.c:91 and 125; src/digraph_operations.c:97, 99,
204, 251, 314, 317 and 428). The assertion in src/digraph_core.c:66 repeats a test that the function has just made; it is left out.
-/
import Verif.Model.Digraph
import Verif.Model.Assert

namespace Scc

/-- `assert(f(..))` for a function that reads the blocks `ids`. -/
def asrtK (ids : List Nat) (k : Option Bool) : M Unit := do
  let b ← useK ids k
  asrtM (b = true)

/-- `assert(iscc_digraph_is_valid(dg))`. -/
def asrtValid (cfg : Cfg) (d : Digraph) : M Unit := asrtK d.ids (digraphIsValid cfg d)

/-- `iscc_digraph_is_empty`, src/digraph_core.c:77-81, with the assertion of line 79. -/
def digraphIsEmptyDbg (cfg : Cfg) (d : Digraph) : Option Bool := do
  asrt (digraphIsInitialized cfg d = true)
  digraphIsEmpty d

/-- `assert(!iscc_digraph_is_empty(dg))`. -/
def asrtNonempty (cfg : Cfg) (d : Digraph) : M Unit := asrtK d.ids ((digraphIsEmptyDbg cfg d).map (!·))

/-- `iscc_init_digraph`, src/digraph_core.c:84-115, with the assertions of lines 88-90 and 112. -/
def initDigraphDbg (cfg : Cfg) (vertices maxArcs : Nat) : M (Except ErrorCode Digraph) := do
  asrtM (0 < vertices)
  asrtM (vertices ≤ cfg.pointMax)
  asrtM (vertices < cfg.sizeMax)
  match ← initDigraph cfg vertices maxArcs with
  | .error ec => pure (.error ec)
  | .ok d => do
    asrtM (digraphIsInitialized cfg d = true)
    pure (.ok d)

/-- `iscc_empty_digraph`, src/digraph_core.c:118-149, with the assertions of lines 122-124 and 146. -/
def emptyDigraphDbg (cfg : Cfg) (vertices maxArcs : Nat) : M (Except ErrorCode Digraph) := do
  asrtM (0 < vertices)
  asrtM (vertices ≤ cfg.pointMax)
  asrtM (vertices < cfg.sizeMax)
  match ← emptyDigraph cfg vertices maxArcs with
  | .error ec => pure (.error ec)
  | .ok d => do
    asrtValid cfg d
    pure (.ok d)

/-- `iscc_change_arc_storage`, src/digraph_core.c:152-174, with the assertions of lines 155 and 156. -/
def changeArcStorageDbg (cfg : Cfg) (d : Digraph) (newMax : Nat) : M (ErrorCode × Digraph) := do
  asrtM (digraphIsInitialized cfg d = true)
  let m ← useK d.ids ((ptrBuf d.tail).get d.n)
  asrtM (m ≤ newMax)
  changeArcStorage cfg d newMax

/-- `iscc_delete_loops`, src/digraph_operations.c:61-86, with the assertions of lines 63, 66 and 69. -/
def deleteLoopsDbg (cfg : Cfg) (d : Digraph) : M (ErrorCode × Digraph) := do
  asrtValid cfg d
  if ← useK d.ids (digraphIsEmptyDbg cfg d) then pure (.ok, d)
  else do
    asrtM (d.head ≠ none)
    asrtM (d.n ≤ cfg.pointMax)
    let (head, tail, hw) ← useK d.ids (deleteLoopsK d.n (ptrBuf d.head) (ptrBuf d.tail))
    changeArcStorageDbg cfg { d with head := ptrSet d.head head, tail := ptrSet d.tail tail } hw

/-- The assertions at the beginning of `iscc_do_union_and_delete`, src/digraph_operations.c:313-327. -/
def unionArgsDbg (cfg : Cfg) (inDgs : List Digraph) (n : Nat) : Option Unit := do
  asrt (inDgs ≠ [])
  asrt (0 < n)
  asrt (∀ d ∈ inDgs, digraphIsInitialized cfg d = true ∧ d.n = n)
  asrt (n ≤ cfg.pointMax)

/-- `iscc_do_union_and_delete`, src/digraph_operations.c:303-411, with the assertions of lines 313-327, 365, 381, 385 and 406. `out` is the digraph to which the result is written;
it matters only when `write` is true. -/
def doUnionDbg (cfg : Cfg) (inDgs : List Digraph) (n : Nat) (dgs : List (Buf Nat × Buf Nat)) (rm : Buf Nat) (tails : Option (List Nat))
    (keepLoops write : Bool) (out : Digraph) : Option UnionSt := do
  unionArgsDbg cfg inDgs n
  let rm ← initMarkers cfg n rm
  let st : UnionSt := ⟨rm, ptrBuf out.head, ptrBuf out.tail, 0⟩
  match tails, write with
  | none, false => forLt 0 n st fun v st => unionRow keepLoops false dgs v st
  | some ts, false => ts.foldlM (fun st v => unionRow keepLoops false dgs v st) st
  | none, true => do
    asrt (out.tail ≠ none)
    let tail ← st.tail.set 0 0
    forLt 0 n { st with tail := tail } fun v st => do
      let st ← unionRow keepLoops true dgs v st
      let tail ← st.tail.set (v + 1) st.cnt
      asrt (st.cnt = 0 ∨ out.head ≠ none)
      pure { st with tail := tail }
  | some ts, true => do
    asrt (out.tail ≠ none)
    let tail ← st.tail.set 0 0
    let (st, _) ← forLt 0 n ({ st with tail := tail }, ts) fun v (st, next) => do
      let (st, next) ← unionKeptRow keepLoops dgs v st next
      let tail ← st.tail.set (v + 1) st.cnt
      asrt (st.cnt = 0 ∨ out.head ≠ none)
      pure ({ st with tail := tail }, next)
    pure st

/-- Allocation of the output digraph, src/digraph_operations.c:115-131 and 265-281. -/
def allocOutputDbg (cfg : Cfg) (n greedy rmId : Nat) (ids : List Nat) (count : Option UnionSt) : M (Except ErrorCode Digraph) := do
  match ← initDigraphDbg cfg n greedy with
  | .ok d => pure (.ok d)
  | .error _ => do
    resetErr
    let st ← useK (rmId :: ids) count
    initDigraphDbg cfg n st.cnt

/-- The part shared by union and product, src/digraph_operations.c:114-143 and 265-295. -/
def buildDigraphDbg (cfg : Cfg) (n greedy rmId : Nat) (ids : List Nat) (count : Option UnionSt)
    (write : Digraph → Option UnionSt) : M (Except ErrorCode Digraph) := do
  match ← allocOutputDbg cfg n greedy rmId ids count with
  | .error ec => do
    freeId rmId
    pure (.error ec)
  | .ok d => do
    let st ← useK (rmId :: d.ids ++ ids) (write d)
    freeId rmId
    let (ec, d) ← changeArcStorageDbg cfg { d with head := ptrSet d.head st.head, tail := ptrSet d.tail st.tail } st.cnt
    if ec ≠ .ok then do
      let _ ← freeDigraph d
      pure (.error ec)
    else pure (.ok d)

/-- The assertions in the loop that adds the numbers of arcs, src/digraph_operations.c:104-109. In the C code the additions are in the same loop. -/
def asrtAllValid (cfg : Cfg) (n : Nat) : List Digraph → M Unit
  | [] => pure ()
  | d :: ds => do
    asrtValid cfg d
    asrtM (d.n = n)
    asrtAllValid cfg n ds

/-- `iscc_digraph_union_and_delete`, src/digraph_operations.c:89-144, with the assertions of lines 96, 98, 106 and 107. -/
def unionAndDeleteDbg (cfg : Cfg) (inDgs : List Digraph) (tails : Option (List Nat)) (keepLoops : Bool) :
    M (Except ErrorCode Digraph) := do
  let ids := inDgs.flatMap Digraph.ids
  let dgs := inDgs.map fun d => (ptrBuf d.head, ptrBuf d.tail)
  asrtM (inDgs ≠ [])
  let vertices ← useK ids (inDgs.head?.map Digraph.n)
  asrtAllValid cfg vertices inDgs
  let greedy ← useK ids (unionGreedy vertices dgs)
  match ← alloc (Buf.raw vertices) with
  | none => fail .noMemory "src/digraph_operations.c" 112
  | some rm => do
    buildDigraphDbg cfg vertices greedy rm.id ids
      (doUnionDbg cfg inDgs vertices dgs rm.buf tails keepLoops false Digraph.null)
      (fun out => doUnionDbg cfg inDgs vertices dgs rm.buf tails keepLoops true out)

/-- `iscc_digraph_difference`, src/digraph_operations.c:147-196, with the assertions of lines 151-156, 159 and 170. -/
def digraphDifferenceDbg (cfg : Cfg) (m s : Digraph) (maxOut : Nat) : M (ErrorCode × Digraph) := do
  asrtValid cfg m
  asrtValid cfg s
  asrtM (0 < m.n)
  asrtM (m.n = s.n)
  let t ← useK s.ids ((ptrBuf s.tail).get m.n)
  asrtM (t = 0 ∨ s.head ≠ none)
  asrtM (0 < maxOut)
  if ← useK m.ids (digraphIsEmptyDbg cfg m) then pure (.ok, m)
  else do
    asrtM (m.head ≠ none)
    match ← alloc (Buf.raw m.n) with
    | none => do
      let e ← mkErr .noMemory "src/digraph_operations.c" 162
      pure (e, m)
    | some rm => do
      asrtM (m.n ≤ cfg.pointMax)
      let (head, tail, w) ← useK (rm.id :: m.ids ++ s.ids)
        (differenceK cfg m.n (ptrBuf m.head) (ptrBuf m.tail) (ptrBuf s.head) (ptrBuf s.tail) rm.buf maxOut)
      freeId rm.id
      changeArcStorageDbg cfg { m with head := ptrSet m.head head, tail := ptrSet m.tail tail } w

/-- `iscc_digraph_transpose`, src/digraph_operations.c:199-237, with the assertions of lines 202, 203, 212, 213 and 225. -/
def digraphTransposeDbg (cfg : Cfg) (d : Digraph) : M (Except ErrorCode Digraph) := do
  asrtValid cfg d
  asrtM (0 < d.n)
  let total ← useK d.ids ((ptrBuf d.tail).get d.n)
  match ← emptyDigraphDbg cfg d.n total with
  | .error ec => pure (.error ec)
  | .ok o => do
    if ← useK d.ids (digraphIsEmptyDbg cfg d) then pure (.ok o)
    else do
      asrtM (d.head ≠ none)
      asrtM (o.head ≠ none)
      asrtM (d.n ≤ cfg.pointMax)
      let (h, t) ← useK (d.ids ++ o.ids) (transposeK d.n (ptrBuf d.head) (ptrBuf d.tail) (ptrBuf o.head) (ptrBuf o.tail))
      pure (.ok { o with head := ptrSet o.head h, tail := ptrSet o.tail t })

/-- The assertions at the beginning of `iscc_do_adjacency_product`, src/digraph_operations.c:422-431. -/
def productArgsDbg (cfg : Cfg) (a b : Digraph) : Option Unit := do
  asrt (digraphIsInitialized cfg a = true)
  asrt (digraphIsInitialized cfg b = true)
  let ea ← digraphIsEmptyDbg cfg a
  asrt (ea = false)
  let eb ← digraphIsEmptyDbg cfg b
  asrt (eb = false)
  asrt (0 < a.n)
  asrt (a.n = b.n)
  asrt (a.n ≤ cfg.pointMax)

/-- `iscc_do_adjacency_product`, src/digraph_operations.c:414-506, with the assertions of lines 422-431, 471 and 472. `out` is the digraph to which the result is written; it matters only
when `write` is true. (The last two assertions come after the markers are initialised, which has no other effect.) -/
def doProductDbg (cfg : Cfg) (a b : Digraph) (rm : Buf Nat) (force write : Bool) (out : Digraph) : Option UnionSt := do
  productArgsDbg cfg a b
  asrt (write = true → out.tail ≠ none)
  asrt (write = true → out.head ≠ none)
  doProduct cfg a.n (ptrBuf a.head) (ptrBuf a.tail) (ptrBuf b.head) (ptrBuf b.tail) rm force write (ptrBuf out.tail) (ptrBuf out.head)

/-- `iscc_adjacency_product`, src/digraph_operations.c:240-296, with the assertions of lines 245-250. -/
def adjacencyProductDbg (cfg : Cfg) (a b : Digraph) (force : Bool) : M (Except ErrorCode Digraph) := do
  asrtValid cfg a
  asrtValid cfg b
  asrtNonempty cfg a
  asrtNonempty cfg b
  asrtM (0 < a.n)
  asrtM (a.n = b.n)
  let ids := a.ids ++ b.ids
  let vertices := a.n
  match ← alloc (Buf.raw vertices) with
  | none => fail .noMemory "src/digraph_operations.c" 256
  | some rm => do
    let greedy ← useK ids (productGreedy vertices (ptrBuf a.head) (ptrBuf a.tail) (ptrBuf b.tail) force)
    buildDigraphDbg cfg vertices greedy rm.id ids (doProductDbg cfg a b rm.buf force false Digraph.null)
      (fun out => doProductDbg cfg a b rm.buf force true out)

end Scc
