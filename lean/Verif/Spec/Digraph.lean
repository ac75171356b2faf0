/-
Specification vocabulary for digraphs: a digraph is a function giving each vertex its list of out-neighbours.
-/
import Verif.Model.FindSeeds

namespace Scc

/-- Number of arcs of the vertices below `v`. -/
def off (rows : Nat → List Nat) : Nat → Nat
  | 0 => 0
  | v + 1 => off rows v + (rows v).length

/-- The arrays `head`, `tail` store, in compressed row form, the digraph on `0..n-1` whose arcs from `v` are `rows v`, in that order. -/
structure Csr (n : Nat) (head tail : Buf Nat) (rows : Nat → List Nat) : Prop where
  tail_get : ∀ v, v ≤ n → tail.get v = some (off rows v)
  head_get : ∀ v, v < n → ∀ j a, (rows v)[j]? = some a → head.get (off rows v + j) = some a
  range : ∀ v, v < n → ∀ a ∈ rows v, a < n

/-- A digraph object is well formed and represents `rows`. -/
structure Digraph.Repr (cfg : Cfg) (d : Digraph) (rows : Nat → List Nat) : Prop where
  csr : Csr d.n (ptrBuf d.head) (ptrBuf d.tail) rows
  tail_len : (ptrBuf d.tail).len = d.n + 1
  head_len : (ptrBuf d.head).len = d.maxArcs
  vertices : d.n ≤ cfg.pointMax
  arcs : d.maxArcs ≤ cfg.arcMax
  arcs_size : d.maxArcs ≤ cfg.sizeMax
  head_null : d.maxArcs = 0 ↔ d.head = none

/-- `firstOcc seen l`: the elements of `l` that are not in `seen`, first occurrences only, in order. -/
def firstOcc (seen : List Nat) : List Nat → List Nat
  | [] => []
  | a :: l => if a ∈ seen then firstOcc seen l else a :: firstOcc (a :: seen) l

/-- Arcs of `v` in the union of the digraphs `rowss`: each head once, in order of first appearance, without `v` itself
unless loops are kept. -/
def unionRows (keepLoops : Bool) (rowss : List (Nat → List Nat)) (v : Nat) : List Nat :=
  firstOcc (if keepLoops then [] else [v]) (rowss.flatMap fun r => r v)

/-- Is `v` one of the tails to keep (`none`: all are kept)? -/
def keepTail (tails : Option (List Nat)) (v : Nat) : Bool :=
  match tails with
  | none => true
  | some ts => decide (v ∈ ts)

/-- Rows of the union restricted to the kept tails. -/
def unionKeptRows (keepLoops : Bool) (rowss : List (Nat → List Nat)) (tails : Option (List Nat)) (v : Nat) : List Nat :=
  if keepTail tails v then unionRows keepLoops rowss v else []

/-- Arcs of `v` in the product: heads reached by an `a`-arc (or, with `force`, no arc) followed by a `b`-arc; each once,
never `v` itself. -/
def productRows (force : Bool) (a b : Nat → List Nat) (v : Nat) : List Nat :=
  firstOcc [v] ((if force then b v else []) ++ (a v).flatMap b)

/-- Arcs of `v` after deleting loops. -/
def noLoopRows (rows : Nat → List Nat) (v : Nat) : List Nat := (rows v).filter (fun a => a ≠ v)

/-- Arcs of `v` in the difference: the first `maxOut` arcs of the minuend that are not arcs of the subtrahend. -/
def differenceRows (m s : Nat → List Nat) (maxOut : Nat) (v : Nat) : List Nat :=
  ((m v).filter (fun a => a ∉ s v)).take maxOut

/-- Arcs of `x` in the transpose of a digraph on `0..n-1`: each `u`, as often as `x` occurs in `rows u`, in descending order. -/
def transposeRows (rows : Nat → List Nat) : Nat → Nat → List Nat
  | 0, _ => []
  | n + 1, x => List.replicate ((rows n).count x) n ++ transposeRows rows n x

end Scc
