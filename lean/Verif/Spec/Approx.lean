/-
Metrics and competing clusterings, for properties C11 and C44.
-/
import Verif.Spec.Clustering
import Mathlib.Algebra.Order.Group.Defs

namespace Scc

variable {F : Type} {K : Type} [AddCommGroup K] [LinearOrder K]

/-- `d` is a (pseudo-)metric. -/
structure Metric (d : Nat → Nat → K) : Prop where
  self : ∀ x, d x x = 0
  symm : ∀ x y, d x y = d y x
  triangle : ∀ x y z, d x z ≤ d x y + d y z

/-- Answers are the nearest points with respect to `d`. -/
abbrev NearestBy (d : Nat → Nat → K) (within : Nat → Nat → F → Prop) : Criterion F := Nearest (fun q x y => d q x ≤ d q y) within

/-- The competing clustering `f` puts each primary point in a cluster (other points may be left out) with enough points and enough points of each type, and no two points of a cluster are farther
apart than `D`. There are `n` points, `P` are the primary ones, `lab` are the types and `c` the numbers required of each type. -/
structure Feasible (d : Nat → Nat → K) (n : Nat) (o : Options F) (P : List Nat) (lab c : Nat → Nat) (D : K) (f : Nat → Option Nat) : Prop where
  assigned : ∀ v ∈ P, f v ≠ none
  size : ∀ v ∈ P, o.sizeConstraint ≤ ((List.range n).filter fun x => f x = f v).length
  types : 2 ≤ o.numTypes → ∀ v ∈ P, ∀ t < o.numTypes, c t ≤ ((List.range n).filter fun x => f x = f v ∧ lab x = t).length
  diameter : ∀ u v, u < n → v < n → f u ≠ none → f u = f v → d u v ≤ D

end Scc
