/-
Data sets of `double` values, and the distances of their points without rounding.
-/
import Verif.Model.Double
import Verif.Spec.Spi
import Mathlib.Analysis.InnerProductSpace.PiL2

namespace Scc

/-- All coordinates are there and none is a NaN or an infinity. -/
def DataSet.FiniteCoords (ds : DataSet Dbl) : Prop := ∀ i, i < ds.n * ds.dims → ∃ x : ℝ, ds.buf.get i = some (.fin x)

/-- Coordinate `t` of point `i` as a real number. -/
noncomputable def DataSet.realCoord (ds : DataSet Dbl) (i t : Nat) : ℝ :=
  match ds.coord i t with
  | .fin x => x
  | _ => 0

/-- Point `i` in Euclidean space. -/
noncomputable def DataSet.point (ds : DataSet Dbl) (i : Nat) : EuclideanSpace ℝ (Fin ds.dims) := WithLp.toLp 2 fun t => ds.realCoord i t

/-- The Euclidean distance of two points, without rounding. -/
noncomputable def DataSet.eudist (ds : DataSet Dbl) (i j : Nat) : ℝ := Dist.dist (ds.point i) (ds.point j)

/-- The largest relative error of an operation, 2^-53. -/
noncomputable def roundoff : ℝ := 2 ^ (-53 : ℤ)

/-- The factor by which rounding can make a point seem nearer than another. -/
noncomputable def nearFactor : ℝ := 1 + 2 ^ (-31 : ℤ)

/-- Distances can be computed without overflow and underflow: coordinates are finite, different coordinates differ by at least 2^-500 and at most 2^500, and there are not more than 2^20 dimensions. -/
structure DataSet.Moderate (ds : DataSet Dbl) : Prop where
  finite : ds.FiniteCoords
  dims : ds.dims ≤ 2 ^ 20
  spread : ∀ i j t, i < ds.n → j < ds.n → t < ds.dims →
    ds.realCoord i t = ds.realCoord j t ∨ 2 ^ (-500 : ℤ) ≤ |ds.realCoord i t - ds.realCoord j t| ∧ |ds.realCoord i t - ds.realCoord j t| ≤ 2 ^ (500 : ℤ)

/-- The coordinates are integers and no two points are farther apart than 2^26.5 (about 94.9 million). -/
structure DataSet.SmallIntegers (ds : DataSet Dbl) : Prop where
  finite : ds.FiniteCoords
  integer : ∀ i t, i < ds.n → t < ds.dims → ∃ z : ℤ, ds.realCoord i t = z
  bound : ∀ i j, i < ds.n → j < ds.n → ds.eudist i j ^ 2 ≤ 2 ^ 53

/-- Numbers that have at most 53 bits, the last of them not below 2^-1074: the finite values of type `double`, if they are not larger than `DBL_MAX`. -/
def Has53Bits (x : ℝ) : Prop := ∃ m e : ℤ, |m| < 2 ^ 53 ∧ -1074 ≤ e ∧ x = m * 2 ^ e

end Scc
