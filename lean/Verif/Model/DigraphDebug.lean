/-
Model of src/digraph_debug.c: the functions that check, compare, build, copy and print digraphs.

Strings are lists of characters without the terminating NUL. Printing is modelled by the list of characters written.
-/
import Verif.Model.Digraph

namespace Scc

/-- `memcpy` of the first `n` cells of `src` into `dst`; src/digraph_debug.c:112, 113, 179 and 181. -/
def Buf.copyInto {α : Type} (src dst : Buf α) (n : Nat) : Option (Buf α) :=
  if n ≤ src.len ∧ n ≤ dst.len then some ⟨dst.len, fun i => if i < n then src.cell i else dst.cell i⟩ else none

/-- `rowLoop` with a body that may leave early. -/
def rowLoopB {σ ρ : Type} (head tail : Buf Nat) (r : Nat) (s : σ) (body : Nat → σ → Option (Ctl σ ρ)) : Option (Ctl σ ρ) := do
  let stop ← tail.get (r + 1)
  let start ← tail.get r
  if start ≤ stop then
    foldB (fun s i => do
      let a ← head.get i
      body a s) s (List.range' start (stop - start))
  else none

/-- `iscc_is_balanced_digraph`, src/digraph_debug.c:39-49. The product is computed in the wider of `size_t` and `iscc_ArcIndex`. -/
def isBalancedDigraph (cfg : Cfg) (d : Digraph) (perVertex : Nat) : Option Bool := do
  if !(← digraphIsValid cfg d) then pure false
  else do
    match ← forLtB 0 (d.n + 1) () (fun i _ => do
        let t ← (ptrBuf d.tail).get i
        if t ≠ i * perVertex % (max cfg.sizeMax cfg.arcMax + 1) then pure (Ctl.stop ()) else pure (Ctl.next ())) with
    | .stop _ => pure false
    | .next _ => pure true

/-- One round of the loop in `iscc_digraphs_equal`, src/digraph_debug.c:63-86: compares the arcs of `v`. Leaving the loop
means that the function returns false. -/
def equalRow (n : Nat) (aHead aTail bHead bTail : Buf Nat) (v : Nat) (row : Buf Nat) : Option (Ctl (Buf Nat) Unit) := do
  let row ← rowLoop aHead aTail v row fun a row => row.set a 1
  match ← rowLoopB bHead bTail v row (fun a row => do
      let x ← row.get a
      if x = 0 then pure (Ctl.stop ())
      else do
        let row ← row.set a 2
        pure (Ctl.next row)) with
  | .stop _ => pure (.stop ())
  | .next row =>
    forLtB 0 n row fun i row => do
      let x ← row.get i
      if x = 1 then pure (Ctl.stop ())
      else do
        let row ← row.set i 0
        pure (Ctl.next row)

/-- `iscc_digraphs_equal`, src/digraph_debug.c:52-91. The result of `calloc` is not checked. -/
def digraphsEqual (a b : Digraph) : M Bool := do
  if a.n ≠ b.n then pure false
  else do
    let (ta, tb) ← useK (a.ids ++ b.ids) (do
      let x ← (ptrBuf a.tail).get a.n
      let y ← (ptrBuf b.tail).get b.n
      pure (x, y))
    if ta = 0 ∧ tb = 0 then pure true
    else do
      let row ← alloc (Buf.fill a.n 0) false
      let r ← useK (ptrIds row ++ a.ids ++ b.ids) (forLtB 0 a.n (ptrBuf row)
        (equalRow a.n (ptrBuf a.head) (ptrBuf a.tail) (ptrBuf b.head) (ptrBuf b.tail)))
      freePtr row
      match r with
      | .stop _ => pure false
      | .next _ => pure true

/-- `iscc_digraph_from_pieces`, src/digraph_debug.c:94-116. -/
def digraphFromPieces (cfg : Cfg) (vertices maxArcs : Nat) (tail head : Buf Nat) : M (Except ErrorCode Digraph) := do
  match ← initDigraph cfg vertices maxArcs with
  | .error e => pure (.error e)
  | .ok d => do
    let t ← useK d.ids (tail.copyInto (ptrBuf d.tail) (vertices + 1))
    let h ← useK d.ids (head.copyInto (ptrBuf d.head) maxArcs)
    pure (.ok { d with head := ptrSet d.head h, tail := ptrSet d.tail t })

/-- First pass over the string in `iscc_digraph_from_string`, src/digraph_debug.c:125-136: counts vertices, cells and arcs.
Leaving the loop means that the function fails. A remainder by zero is undefined behaviour. -/
def scanString (s : List Char) : Option (Ctl (Nat × Nat × Nat) Unit) :=
  foldB (fun (vertices, cells, arcs) c =>
    let cells := if c = '#' ∨ c = '.' then cells + 1 else cells
    let arcs := if c = '#' then arcs + 1 else arcs
    let vertices := if c = '/' ∧ vertices = 0 then cells else vertices
    if c = '/' then
      if vertices = 0 then none
      else if cells % vertices ≠ 0 then some (Ctl.stop ())
      else some (Ctl.next (vertices, cells, arcs))
    else some (Ctl.next (vertices, cells, arcs))) (0, 0, 0) s

/-- The state of the second pass: the arrays of the digraph, `curr_array_pos`, `curr_row` and `curr_col`. -/
structure ParseSt where
  head : Buf Nat
  tail : Buf Nat
  pos : Nat
  row : Nat
  col : Nat

/-- One round of the second pass, src/digraph_debug.c:147-157. -/
def parseChar (cfg : Cfg) (st : ParseSt) (c : Char) : Option ParseSt :=
  if c = '#' then do
    let head ← st.head.set st.pos st.col
    pure { st with head := head, pos := st.pos + 1, col := (st.col + 1) % (cfg.pointMax + 1) }
  else if c = '.' then some { st with col := (st.col + 1) % (cfg.pointMax + 1) }
  else if c = '/' then do
    let tail ← st.tail.set (st.row + 1) st.pos
    pure { st with tail := tail, row := st.row + 1, col := 0 }
  else some st

/-- Second pass over the string, src/digraph_debug.c:141-158: writes the arcs. Returns the two arrays. -/
def parseString (cfg : Cfg) (vertices : Nat) (s : List Char) (head tail : Buf Nat) : Option (Buf Nat × Buf Nat) := do
  let tail ← tail.set 0 0
  let st ← s.foldlM (parseChar cfg) ⟨head, tail, 0, 0, 0⟩
  let tail ← st.tail.set vertices st.pos
  pure (st.head, tail)

/-- `iscc_digraph_from_string`, src/digraph_debug.c:119-163. -/
def digraphFromString (cfg : Cfg) (s : List Char) : M (Except ErrorCode Digraph) := do
  match ← useK [] (scanString s) with
  | .stop _ => fail .invalidInput "src/digraph_debug.c" 134
  | .next (vertices, _, arcs) => do
    match ← initDigraph cfg vertices arcs with
    | .error e => pure (.error e)
    | .ok d => do
      let (h, t) ← useK d.ids (parseString cfg vertices s (ptrBuf d.head) (ptrBuf d.tail))
      pure (.ok { d with head := ptrSet d.head h, tail := ptrSet d.tail t })

/-- `iscc_copy_digraph`, src/digraph_debug.c:166-185. -/
def copyDigraph (cfg : Cfg) (d : Digraph) : M (Except ErrorCode Digraph) := do
  if d.n = 0 then emptyDigraph cfg 0 0
  else do
    let arcs ← useK d.ids ((ptrBuf d.tail).get d.n)
    match ← initDigraph cfg d.n arcs with
    | .error e => pure (.error e)
    | .ok c => do
      let t ← useK (d.ids ++ c.ids) ((ptrBuf d.tail).copyInto (ptrBuf c.tail) (d.n + 1))
      let c := { c with tail := ptrSet c.tail t }
      if 0 < arcs then do
        let h ← useK (d.ids ++ c.ids) ((ptrBuf d.head).copyInto (ptrBuf c.head) arcs)
        pure (.ok { c with head := ptrSet c.head h })
      else pure (.ok c)

/-- One round of the loop in `iscc_print_digraph`, src/digraph_debug.c:203-219: writes the row of `v`. -/
def printRow (n : Nat) (head tail : Buf Nat) (v : Nat) (st : Buf Bool × List Char) : Option (Buf Bool × List Char) := do
  let (row, out) := st
  let row ← rowLoop head tail v row fun a row => row.set a true
  let (row, out) ← forLt 0 n (row, out) fun i (row, out) => do
    let x ← row.get i
    let row ← row.set i false
    pure (row, out ++ [if x then '#' else '.'])
  pure (row, out ++ ['\n'])

/-- `iscc_print_digraph`, src/digraph_debug.c:188-224. The result is what is written to the standard output. -/
def printDigraph (d : Digraph) : M (List Char) := do
  if d.n = 0 then pure "[]\n\n".toList
  else do
    match ← alloc (Buf.fill d.n false) with
    | none => pure "Out of memory.\n\n".toList
    | some b => do
      let (_, out) ← useK (b.id :: d.ids) (forLt 0 d.n (b.buf, []) (printRow d.n (ptrBuf d.head) (ptrBuf d.tail)))
      freeId b.id
      pure (out ++ ['\n'])

end Scc
