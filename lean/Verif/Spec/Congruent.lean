/-
Specification for data sets that are congruent: the true distances between points are the same.
-/
import Verif.Spec.Compare
import Verif.Spec.Double

namespace Scc

/-- The points of the two data sets have the same Euclidean distances, in the mathematical sense. The numbers of dimensions may differ. -/
structure Congruent (ds ds' : DataSet Dbl) : Prop where
  exact : ds.Exact
  exact' : ds'.Exact
  num : ds.n = ds'.n
  dist : ∀ i j, i < ds.n → j < ds.n → ds'.eudist i j = ds.eudist i j

end Scc
