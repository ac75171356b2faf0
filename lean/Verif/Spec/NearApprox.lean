/-
Answers to nearest neighbour queries that are right up to a factor, for property C75.
-/
import Verif.Spec.Approx
import Mathlib.Algebra.Order.Ring.Defs

namespace Scc

variable {F : Type} {K : Type} [CommRing K] [LinearOrder K]

/-- Answers are the nearest points with respect to `d` up to a factor `c`: a point of the answer is at most `c` times as far away as a point that is not in the answer, and as later points of the
answer. -/
abbrev NearestUpTo (c : K) (d : Nat → Nat → K) (within : Nat → Nat → F → Prop) : Criterion F := Nearest (fun q x y => d q x ≤ c * d q y) within

end Scc
