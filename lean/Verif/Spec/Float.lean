/-
Order laws of floating point numbers used by theorems about distances.
-/
import Verif.Model.Spi

namespace Scc

/-- The value is not a NaN: a NaN is the only value that does not compare equal to itself. -/
def IsNum {F : Type} [FloatOps F] (x : F) : Prop := FloatOps.le x x = true

instance {F : Type} [FloatOps F] (x : F) : Decidable (IsNum x) := by unfold IsNum; infer_instance

/-- The order laws of `double` (they hold for IEEE 754 comparisons): on values that are not NaN, `<=` is total and `<` is its strict part; `<=`
is transitive; comparisons with a NaN are false. -/
structure FloatLaws (F : Type) [FloatOps F] : Prop where
  total : ∀ a b : F, IsNum a → IsNum b → FloatOps.le a b = true ∨ FloatOps.le b a = true
  trans : ∀ a b c : F, FloatOps.le a b = true → FloatOps.le b c = true → FloatOps.le a c = true
  lt_iff : ∀ a b : F, IsNum a → IsNum b → (FloatOps.lt a b = true ↔ FloatOps.le b a = false)
  nan_lt : ∀ a b : F, ¬ IsNum a → FloatOps.lt a b = false

/-- `y` comes before `x` when the members of the list `L` are ordered by `d`, ties broken by position in `L`. -/
def Nearer {F : Type} [FloatOps F] (d : Nat → F) (L : List Nat) (y x : Nat) : Prop :=
  FloatOps.le (d y) (d x) = true ∧ (FloatOps.le (d x) (d y) = true → L.idxOf y < L.idxOf x)

/-- `x` is a first member of `L` at maximal distance. -/
def Farthest {F : Type} [FloatOps F] (d : Nat → F) (L : List Nat) (x : Nat) : Prop :=
  x ∈ L ∧ ∀ y ∈ L, FloatOps.le (d y) (d x) = true ∧ (FloatOps.le (d x) (d y) = true → L.idxOf x ≤ L.idxOf y)

/-- All pairs of entries of a list, in row-major upper-triangular order. -/
def upperPairs : List Nat → List (Nat × Nat)
  | [] => []
  | x :: xs => xs.map (fun y => (x, y)) ++ upperPairs xs

end Scc
