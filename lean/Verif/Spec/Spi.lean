/-
Specification vocabulary for distance search: what it means for a search back end to work as documented (include/scclust_spi.h).
-/
import Verif.Model.DistSearch

namespace Scc

variable {F : Type}

/-- The index array `a` (NULL stands for `0, 1, ..., len - 1`) holds the list `L`. -/
def ArrHolds (a : Option Arr) (L : List Nat) : Prop :=
  match a with
  | none => L = List.range L.length
  | some a => ∀ (i x : Nat), L[i]? = some x → a.buf.get i = some x

/-- A criterion for answers to nearest neighbour queries: `A set k radius q a` says that `a` is an acceptable answer to the query for
the `k` nearest neighbours of `q` in `set` (within the radius, if there is one). The answer is a list of neighbours, or `none` when there
are not enough within the radius. -/
abbrev Criterion (F : Type) := List Nat → Nat → Option F → Nat → Option (List Nat) → Prop

/-- The minimum that every search must satisfy: an answer consists of `k` distinct members of the search set, and
without radius there is an answer. -/
def WellFormed : Criterion F := fun set k radius _q a =>
  (radius = none → a ≠ none) ∧ ∀ l, a = some l → l.length = k ∧ l.Nodup ∧ l ⊆ set

/-- The queries with an answer, and their answers, in order. -/
def answered (res : List (Nat × Option (List Nat))) : List (Nat × List Nat) :=
  res.filterMap fun p => p.2.map fun l => (p.1, l)

/-- The length of the output array for answered queries. -/
def OutQ.len (queries : Option Arr) : OutQ → Nat
  | .null => 0
  | .same => ((queries.map Arr.buf).getD (Buf.raw 0)).len
  | .buf b => b.len

/-- The output of a search matches the answers `res`. -/
structure NNOut.Matches (out : NNOut) (oq : OutQ) (k : Nat) (res : List (Nat × Option (List Nat))) : Prop where
  numOk : out.numOk = (answered res).length
  queries : oq ≠ .null → ∀ (i : Nat) (p : Nat × List Nat), (answered res)[i]? = some p → out.outQ.get i = some p.1
  neighbors : ∀ (i : Nat) (p : Nat × List Nat), (answered res)[i]? = some p → ∀ (j x : Nat), p.2[j]? = some x → out.nn.get (i * k + j) = some x

/-- What is needed for a valid nearest neighbour query. -/
structure NNCall (n : Nat) (set : List Nat) (w : World) (ids : List Nat) (lenQ : Nat) (queries : Option Arr) (Q : List Nat) (k : Nat) (rs : Bool) (oq : OutQ)
    (nn : Buf Nat) : Prop where
  holds : ArrHolds queries Q
  len : Q.length = lenQ
  live : ∀ i ∈ ids, i ∈ w.live
  qlive : ∀ i ∈ arrIds queries, i ∈ w.live
  pos : 0 < lenQ
  range : ∀ q ∈ Q, q < n
  kpos : 0 < k
  kle : k ≤ set.length
  room : lenQ * k ≤ nn.len
  oroom : oq = .null ∨ lenQ ≤ oq.len queries
  notNull : oq = .same → queries ≠ none

/-- The search back end `spi` on a data set of `n` points works as documented: calls leave everything but their own objects alone, and every answered
query satisfies the criterion `A`. `dist` is the distance function. A back end may report failure when an allocation fails or, if `mayRefuse`, at any time. -/
structure SpiOk (spi : Spi F) (n : Nat) (A : Criterion F) (dist : Nat → Nat → F) (mayRefuse : Prop) where
  /-- `isNN o set own ids`: the search object `o` searches in `set`, owns the heap blocks `own` and refers to the blocks `ids` of the caller. -/
  isNN : spi.NN → List Nat → Multiset Nat → List Nat → Prop
  nnInit : ∀ (len : Nat) (arr : Option Arr) (L : List Nat) (w : World), ArrHolds arr L → L.length = len → 0 < len → L.Nodup → (∀ x ∈ L, x < n) →
    (∀ i ∈ arrIds arr, i ∈ w.live) →
    WpM (spi.nnInit len arr) w fun r w' => w'.fails = w.fails ∧ w'.err = w.err ∧
      match r with
      | none => w'.live = w.live ∧ (¬ w.NoFail ∨ mayRefuse)
      | some o => ∃ own, isNN o L own (arrIds arr) ∧ w'.live = own + w.live
  nnSearch : ∀ (o : spi.NN) (set : List Nat) (own : Multiset Nat) (ids : List Nat) (lenQ : Nat) (queries : Option Arr) (Q : List Nat) (k : Nat) (rs : Bool)
    (radius : F) (oq : OutQ) (nn : Buf Nat) (w : World), isNN o set own ids → own ≤ w.live → NNCall n set w ids lenQ queries Q k rs oq nn →
    WpM (spi.nnSearch o lenQ queries k rs radius oq nn) w fun r w' => w'.fails = w.fails ∧ w'.err = w.err ∧ w'.live = w.live ∧
      match r with
      | none => ¬ w.NoFail ∨ mayRefuse
      | some out => out.nn.len = nn.len ∧ (oq ≠ .null → out.outQ.len = oq.len queries) ∧
          ∃ res : List (Nat × Option (List Nat)), res.map Prod.fst = Q ∧
            (∀ p ∈ res, A set k (if rs then some radius else none) p.1 p.2 ∧ WellFormed set k (if rs then some radius else none) p.1 p.2) ∧
            out.Matches oq k res
  nnClose : ∀ (o : spi.NN) (set : List Nat) (own : Multiset Nat) (ids : List Nat) (w : World) (L : Multiset Nat), isNN o set own ids → w.live = own + L →
    WpM (spi.nnClose o) w fun b w' => w'.fails = w.fails ∧ w'.err = w.err ∧ w'.live = L ∧ (b = false → ¬ w.NoFail ∨ mayRefuse)
  distRows : ∀ (lenQ : Nat) (queries : Option Arr) (Q : List Nat) (lenC : Nat) (cols : Option Arr) (C : List Nat) (out : Buf F) (w : World),
    ArrHolds queries Q → Q.length = lenQ → ArrHolds cols C → C.length = lenC → (∀ q ∈ Q, q < n) → (∀ c ∈ C, c < n) → 0 < lenQ → 0 < lenC →
    (∀ i ∈ arrIds queries, i ∈ w.live) → (∀ i ∈ arrIds cols, i ∈ w.live) → lenQ * lenC ≤ out.len →
    WpM (spi.distRows lenQ queries lenC cols out) w fun r w' => w'.fails = w.fails ∧ w'.err = w.err ∧ w'.live = w.live ∧
      match r with
      | none => ¬ w.NoFail ∨ mayRefuse
      | some out' => out'.len = out.len ∧
          ∀ (i j q c : Nat), Q[i]? = some q → C[j]? = some c → out'.get (i * lenC + j) = some (dist q c)
  numPoints : spi.numPoints = n

/-! ### The answers of the built-in search -/

section
variable [FloatOps F]

/-- Insert into a list ordered from far to near, starting at the far end. -/
def insertFar (x : F × Nat) : List (F × Nat) → List (F × Nat)
  | [] => [x]
  | y :: ys => if FloatOps.lt x.1 y.1 then y :: insertFar x ys else x :: y :: ys

/-- Replace the farthest entry by a closer one. -/
def keepNear (acc : List (F × Nat)) (x : F × Nat) : List (F × Nat) :=
  match acc with
  | [] => []
  | y :: ys => if FloatOps.le y.1 x.1 then y :: ys else insertFar x ys

/-- Collect `k` points within the radius, then keep the nearest. -/
def collect (k : Nat) (rsq : Option F) : List (F × Nat) → List (F × Nat) → List (F × Nat)
  | acc, [] => acc
  | acc, x :: xs =>
    if acc.length = k then (x :: xs).foldl keepNear acc
    else if rsq.any (fun r => FloatOps.lt r x.1) then collect k rsq acc xs
    else collect k rsq (insertFar x acc) xs

/-- The answer of the built-in search for a query, as a function of the squared distances `d` to the query. -/
def nnAnswer (d : Nat → F) (set : List Nat) (k : Nat) (radius : Option F) : Option (List Nat) :=
  let r := collect k (radius.map fun r => FloatOps.mul r r) [] (set.map fun j => (d j, j))
  if r.length = k then some (r.reverse.map Prod.snd) else none

/-- The coordinates of a data set of `n` points are all there. -/
def DataSet.Complete (ds : DataSet F) : Prop := ∀ i, i < ds.n * ds.dims → ∃ x, ds.buf.get i = some x

/-- Coordinate `t` of point `i`. -/
def DataSet.coord (ds : DataSet F) (i t : Nat) : F := (ds.buf.get (i * ds.dims + t)).getD FloatOps.zero

/-- Squared distance between points `i` and `j`: the sum of squared differences of coordinates. -/
def DataSet.sqd (ds : DataSet F) (i j : Nat) : F :=
  (List.range ds.dims).foldl (fun acc t => FloatOps.add acc
    (FloatOps.mul (FloatOps.sub (ds.coord i t) (ds.coord j t)) (FloatOps.sub (ds.coord i t) (ds.coord j t)))) FloatOps.zero

/-- Distance between points `i` and `j`. -/
def DataSet.dist (ds : DataSet F) (i j : Nat) : F := FloatOps.sqrt (ds.sqd i j)

end

end Scc
