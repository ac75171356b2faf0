/-
Specification for data sets of which some dimensions are mirrored.
-/
import Verif.Spec.Compare
import Verif.Model.Double

namespace Scc

/-- In the second data set, all coordinates in some dimensions of the first have the opposite sign. The coordinates can be any values, also infinities and NaNs. -/
structure Mirrored (ds ds' : DataSet Dbl) : Prop where
  exact : ds.Exact
  exact' : ds'.Exact
  num : ds.n = ds'.n
  dims : ds.dims = ds'.dims
  coord : ∃ flip : Nat → Bool, ∀ i t, i < ds.n → t < ds.dims → ds'.coord i t = if flip t then (ds.coord i t).neg else ds.coord i t

end Scc
