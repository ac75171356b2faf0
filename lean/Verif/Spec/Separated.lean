/-
Specification of data that fall into groups far from each other.
-/
import Verif.Spec.Clustering

namespace Scc

/-- `g` gives the group of each of the `n` points. Seen from any point, the points of other groups are farther away than those of its own group; `le q x y` says that `x` is no farther from `q` than `y`. -/
def Separated (le : Nat → Nat → Nat → Prop) (n : Nat) (g : Nat → Nat) : Prop :=
  ∀ q x y, q < n → x < n → y < n → g x = g q → g y ≠ g q → ¬ le q y x

/-- The points in the group of `q`. -/
def groupOf (n : Nat) (g : Nat → Nat) (q : Nat) : List Nat := (List.range n).filter fun x => g x = g q

/-- The group of each primary point is large enough for a cluster on its own: it has as many points as the size constraint and, with types, meets all type constraints. -/
def GroupsLarge {F : Type} (n : Nat) (o : Options F) (P : List Nat) (lab c : Nat → Nat) (g : Nat → Nat) : Prop :=
  ∀ q ∈ P, o.sizeConstraint ≤ (groupOf n g q).length ∧ (2 ≤ o.numTypes → ∀ t, t < o.numTypes → c t ≤ (groupOf n g q).countP fun x => lab x = t)

/-- The group of `v` has a primary point. -/
def HasPrimary (P : List Nat) (g : Nat → Nat) (v : Nat) : Prop := ∃ p ∈ P, g p = g v

/-- No cluster has members in two groups, as far as these groups have primary points. -/
def NotMixed (n : Nat) (P : List Nat) (g : Nat → Nat) (k : Nat) (b : Buf Int) : Prop :=
  ∀ i, i < k → ∀ u ∈ members b n i, ∀ v ∈ members b n i, HasPrimary P g u → HasPrimary P g v → g u = g v

end Scc
