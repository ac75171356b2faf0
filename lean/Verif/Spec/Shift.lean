/-
Specification for data sets that are shifted.
-/
import Verif.Spec.Compare
import Verif.Spec.Double

namespace Scc

/-- All coordinates are finite, and the points of the second data set are those of the first, shifted in each dimension. The shifted coordinates are exact. -/
structure Translated (ds ds' : DataSet Dbl) : Prop where
  exact : ds.Exact
  exact' : ds'.Exact
  finite : ds.FiniteCoords
  finite' : ds'.FiniteCoords
  num : ds.n = ds'.n
  dims : ds.dims = ds'.dims
  coord : ∃ b : Nat → ℝ, ∀ i t, i < ds.n → t < ds.dims → ds'.realCoord i t = ds.realCoord i t + b t

end Scc
