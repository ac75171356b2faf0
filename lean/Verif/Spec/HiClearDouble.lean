/-
Specification vocabulary for property C83 in the arithmetic of `double`. Distances are Euclidean, without rounding.
-/
import Verif.Spec.HiClear
import Verif.Spec.Exact
import Verif.Spec.DoubleMore

namespace Scc

/-- Two different pairs of points of `X` have distances that differ by a factor of more than `1 + 2^-31`. -/
def DataSet.ClearPairs (ds : DataSet Dbl) (X : List Nat) : Prop :=
  ∀ x ∈ X, ∀ y ∈ X, ∀ u ∈ X, ∀ v ∈ X, x ≠ y → u ≠ v → ¬ SamePair x y u v → nearFactor * ds.eudist x y < ds.eudist u v ∨ nearFactor * ds.eudist u v < ds.eudist x y

end Scc
