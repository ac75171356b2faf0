/-
Specification for dimensions in which all points agree.
-/
import Verif.Spec.Compare
import Verif.Model.Double

namespace Scc

/-- The second data set is the first with further dimensions, in any positions, in each of which all points have the same finite coordinate. The dimensions of the first data set are the dimensions
`kept` of the second, in the same order. Their coordinates can be any values, also infinities and NaNs. -/
structure ConstantAdded (ds ds' : DataSet Dbl) : Prop where
  exact : ds.Exact
  exact' : ds'.Exact
  num : ds.n = ds'.n
  dims : ∃ kept : List Nat, kept.Sublist (List.range ds'.dims) ∧ kept.length = ds.dims ∧
    (∀ i t, i < ds.n → t < ds.dims → ds'.coord i (kept.getD t 0) = ds.coord i t) ∧
    ∀ u, u < ds'.dims → u ∉ kept → ∃ c : ℝ, ∀ i, i < ds.n → ds'.coord i u = .fin c

end Scc
