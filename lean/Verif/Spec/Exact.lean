/-
Specification for exact arithmetic: the real numbers in the place of floating point numbers.
-/
import Mathlib.Analysis.Real.Sqrt
import Verif.Spec.Compare

namespace Scc

open Classical in
/-- Exact arithmetic. -/
noncomputable instance : FloatOps ℝ where
  zero := 0
  negOne := -1
  dblMax := 2 ^ 1024
  add := (· + ·)
  sub := (· - ·)
  mul := (· * ·)
  div := (· / ·)
  sqrt := Real.sqrt
  ofNat n := (n : ℝ)
  lt a b := decide (a < b)
  le a b := decide (a ≤ b)

/-- The second data set is a copy of the first, moved and scaled by the factor `c`: all distances are multiplied by `c`. -/
structure Similar (c : ℝ) (ds ds' : DataSet ℝ) : Prop where
  exact : ds.Exact
  exact' : ds'.Exact
  num : ds.n = ds'.n
  scale : ∀ p q, p < ds.n → q < ds.n → ds'.dist p q = c * ds.dist p q

/-- The options with all radii multiplied by `c`. -/
noncomputable def Options.scaled (c : ℝ) (o : Options ℝ) : Options ℝ :=
  { o with seedSupplied := c * o.seedSupplied, primarySupplied := c * o.primarySupplied, secondarySupplied := c * o.secondarySupplied }

end Scc
