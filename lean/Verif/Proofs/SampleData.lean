/-
Concrete number types and data sets, used for the examples beside the property theorems.
-/
import Verif.Spec.Float
import Verif.Proofs.DistSearch
import Verif.Proofs.Sample

namespace Scc

/-- Integers as a (very small) stand-in for floating point numbers, with integer square root and division. -/
instance : FloatOps Int where
  zero := 0
  negOne := -1
  dblMax := 2 ^ 1023
  add := (· + ·)
  sub := (· - ·)
  mul := (· * ·)
  div := (· / ·)
  sqrt x := (Nat.sqrt x.toNat : Int)
  ofNat n := (n : Int)
  lt a b := decide (a < b)
  le a b := decide (a ≤ b)

theorem intLaws : FloatLaws Int where
  total a b _ _ := by simp only [FloatOps.le, decide_eq_true_eq]; omega
  trans a b c h1 h2 := by simp only [FloatOps.le, decide_eq_true_eq] at *; omega
  lt_iff a b _ _ := by simp only [FloatOps.le, FloatOps.lt, decide_eq_true_eq, decide_eq_false_iff_not]; omega
  nan_lt a b h := by simp [IsNum, FloatOps.le] at h

theorem int_isNum (x : Int) : IsNum x := by simp [IsNum, FloatOps.le]

/-- A data set with the given rows. -/
def mkData (dims : Nat) (rows : List Int) : DataSet Int := ⟨dataSetVersion, rows.length / dims, dims, some (Buf.ofList rows)⟩

theorem mkData_complete {dims : Nat} {rows : List Int} (h : rows.length / dims * dims ≤ rows.length) : (mkData dims rows).Complete := by
  intro i hi
  have hi' : i < rows.length := lt_of_lt_of_le hi h
  exact ⟨rows[i], by simp [DataSet.buf, mkData, hi']⟩

/-- Six points on a line. -/
def lineData : DataSet Int := mkData 1 [0, 1, 3, 7, 8, 20]

theorem lineData_complete : lineData.Complete := mkData_complete (by decide)

end Scc
