/-
Specification of the nearest neighbour digraph of a run: each primary point that can be a seed has arcs to the points of its neighbourhood.
-/
import Mathlib.Data.List.Sort
import Verif.Spec.Labels
import Verif.Spec.Options

namespace Scc

variable {F : Type}

/-- The arcs given by the answers. -/
def ansRows (ans : Nat → Option (List Nat)) (v : Nat) : List Nat := (ans v).getD []

/-- The neighbours of `v` given by an answer `l` to the query for the nearest points (which normally include `v` itself): `l` without `v`, or without the last one if `v` is not there. -/
def nbrs (v : Nat) (l : List Nat) : List Nat := if v ∈ l then l.filter (· ≠ v) else l.dropLast

/-- The digraph for a size constraint `S` (no types): the arcs of a query with an answer are the neighbours in the answer, other points have none. -/
def SizeNng (A : Criterion F) (n S : Nat) (R : Option F) (Q : List Nat) (rows : Nat → List Nat) : Prop :=
  ∃ ans, Answers A (List.range n) S R Q ans ∧ ∀ v, v < n → rows v = nbrs v (ansRows ans v)

/-- The points of type `t` among the first `n`, in the order of the groups. -/
def typeGroup (n : Nat) (lab : Nat → Nat) (t : Nat) : List Nat := ((List.range n).filter fun v => lab v = t).reverse

/-- `x` is in an acceptable answer to a query for the `S` nearest neighbours of `v` among all points, or for the required number among the points of a type. -/
def FromAnswer (A : Criterion F) (n S : Nat) (R : Option F) (lab c : Nat → Nat) (T v x : Nat) : Prop :=
  ∃ l, x ∈ l ∧ (A (List.range n) S R v (some l) ∧ l.length = S ∨ ∃ t < T, A (typeGroup n lab t) (c t) R v (some l) ∧ l.length = c t)

/-- `W` is a set of `k` points that meets all type constraints and, apart from `v`, comes from acceptable answers. -/
structure TypeSet (A : Criterion F) (n S : Nat) (R : Option F) (lab c : Nat → Nat) (T k v : Nat) (W : List Nat) : Prop where
  nodup : W.Nodup
  len : W.length = k
  range : ∀ x ∈ W, x < n
  types : ∀ t, t < T → c t ≤ W.countP fun x => lab x = t
  from_answer : ∀ x ∈ W, x ≠ v → FromAnswer A n S R lab c T v x

/-- The sum of the first `T` type constraints. -/
def sumTo (c : Nat → Nat) (T : Nat) : Nat := ((List.range T).map c).sum

/-- `q` cannot be a seed: there are not enough points within the radius for some type or, when the type constraints leave points to choose, among all points. -/
def TypeInfeasible (A : Criterion F) (n S : Nat) (R : Option F) (lab c : Nat → Nat) (T q : Nat) : Prop :=
  sumTo c T < S ∧ A (List.range n) S R q none ∨ ∃ t < T, 0 < c t ∧ A (typeGroup n lab t) (c t) R q none

/-- `l` with the point `p`, which takes the last place if it is not there. -/
def selfRow (p : Nat) (l : List Nat) : List Nat := if p ∈ l ∨ l = [] then l else l.dropLast ++ [p]

/-- The points that `v` takes for the type constraints, type by type, from the answers `a`; `v` is one of the points of its own type. -/
def typePart (lab c : Nat → Nat) (T v : Nat) (a : Nat → List Nat) : List Nat :=
  ((List.range T).filter fun t => 0 < c t).flatMap fun t => if lab v = t then selfRow v (a t) else a t

/-- `W` is what `v` takes from acceptable answers: for each type the required number of points and, when that is less than the size constraint, the first points that are new from an answer for all points. -/
def TypeTakes (A : Criterion F) (n S : Nat) (R : Option F) (lab c : Nat → Nat) (T v : Nat) (W : List Nat) : Prop :=
  ∃ a : Nat → List Nat, (∀ t, t < T → 0 < c t → A (typeGroup n lab t) (c t) R v (some (a t)) ∧ (a t).length = c t) ∧
    (sumTo c T = S ∧ W = typePart lab c T v a ∨
      sumTo c T < S ∧ ∃ g, A (List.range n) S R v (some g) ∧ g.length = S ∧
        W = typePart lab c T v a ++ (g.filter fun x => x ∉ typePart lab c T v a).take (S - sumTo c T))

/-- The digraph for type constraints. -/
structure TypeNng (A : Criterion F) (n S : Nat) (R : Option F) (lab c : Nat → Nat) (T : Nat) (Q : List Nat) (rows : Nat → List Nat) : Prop where
  row : ∀ v, v < n → rows v = [] ∨ v ∈ Q ∧ ∃ W, TypeSet A n S R lab c T S v W ∧ rows v = firstOcc [v] W
  infeasible : ∀ v ∈ Q, rows v = [] → R ≠ none ∧ TypeInfeasible A n S R lab c T v
  takes : ∀ v, v < n → rows v ≠ [] → ∃ W, TypeTakes A n S R lab c T v W ∧ rows v = firstOcc [v] W

/-- The digraph that a run builds. -/
def NngOf (A : Criterion F) (n : Nat) (o : Options F) (P : List Nat) (lab c : Nat → Nat) (rows : Nat → List Nat) : Prop :=
  o.numTypes < 2 ∧ SizeNng A n o.sizeConstraint (seedLimit o) P rows ∨
  2 ≤ o.numTypes ∧ TypeNng A n o.sizeConstraint (seedLimit o) lab c o.numTypes P rows

/-- The arcs of a point as they are stored: in a build with `SCC_STABLE_NNG` in ascending order, otherwise as they are. -/
def stored (cfg : Cfg) (l : List Nat) : List Nat := if cfg.stableNng then l.insertionSort (· ≤ ·) else l

/-- `rows` is the digraph that a run builds, as it is stored. -/
def NngStored (cfg : Cfg) (A : Criterion F) (n : Nat) (o : Options F) (P : List Nat) (lab c : Nat → Nat) (rows : Nat → List Nat) : Prop :=
  ∃ rows₀, NngOf A n o P lab c rows₀ ∧ ∀ v, rows v = stored cfg (rows₀ v)

/-- All acceptable answers to a query have the same points. In builds without `SCC_STABLE_NNG` they also list them in the same order. -/
def Determined (cfg : Cfg) (A : Criterion F) : Prop :=
  ∀ set k R q a a', A set k R q a → A set k R q a' → Option.Rel (fun l l' => if cfg.stableNng then l.Perm l' else l = l') a a'

/-- The queries that the library makes for `n` points, and answers that satisfy the criterion and are well-formed. -/
def Strict (n : Nat) (A : Criterion F) : Criterion F := fun set k R q a => A set k R q a ∧ WellFormed set k R q a ∧ set.Nodup ∧ (∀ x ∈ set, x < n) ∧ q < n

/-- Why no digraph can be built. -/
def NoSeeds (A : Criterion F) (n : Nat) (o : Options F) (P : List Nat) (lab c : Nat → Nat) : Prop :=
  o.numTypes < 2 ∧ seedLimit o ≠ none ∧ (∀ q ∈ P, A (List.range n) o.sizeConstraint (seedLimit o) q none) ∨
  2 ≤ o.numTypes ∧ (seedLimit o ≠ none ∧ (∀ q ∈ P, TypeInfeasible A n o.sizeConstraint (seedLimit o) lab c o.numTypes q) ∨
    ∃ t < o.numTypes, (typeGroup n lab t).length < c t)

end Scc
