/-
Specification of calls for a part of the data.
-/
import Verif.Spec.Separated

namespace Scc

variable {F : Type}

/-- The `m` points of a part of the data: point `i` of the part is point `ι i` of all `n` points, in the same order. -/
structure Picks (n m : Nat) (ι : Nat → Nat) : Prop where
  range : ∀ i, i < m → ι i < n
  mono : ∀ i j, i < j → j < m → ι i < ι j

/-- The part is one of the groups that `g` describes. -/
def IsGroup (n m : Nat) (ι g : Nat → Nat) (γ : Nat) : Prop := ∀ x, x < n → (g x = γ ↔ ∃ i, i < m ∧ ι i = x)

/-- The options agree, apart from the primary points and the arrays for types. -/
structure SameSettings (o o' : Options F) : Prop where
  size : o'.sizeConstraint = o.sizeConstraint
  types : o'.numTypes = o.numTypes
  seedMethod : o'.seedMethod = o.seedMethod
  seedRadius : o'.seedRadius = o.seedRadius ∧ o'.seedSupplied = o.seedSupplied
  primary : o'.primaryMethod = o.primaryMethod ∧ o'.primaryRadius = o.primaryRadius ∧ o'.primarySupplied = o.primarySupplied
  secondary : o'.secondaryMethod = o.secondaryMethod ∧ o'.secondaryRadius = o.secondaryRadius ∧ o'.secondarySupplied = o.secondarySupplied

/-- With types, the points of the part have the types that they have among all points, and the constraints are the same. -/
def PartTypes (m : Nat) (ι : Nat → Nat) (T : Nat) (lab c lab' c' : Nat → Nat) : Prop := 2 ≤ T → (∀ i, i < m → lab' i = lab (ι i)) ∧ ∀ t, t < T → c' t = c t

/-- The distances in the part are those of all points. -/
structure SameNearby (m : Nat) (ι : Nat → Nat) (le le' : Nat → Nat → Nat → Prop) (within within' : Nat → Nat → F → Prop) : Prop where
  le : ∀ i x y, i < m → x < m → y < m → (le' i x y ↔ le (ι i) (ι x) (ι y))
  within : ∀ i x r, i < m → x < m → (within' i x r ↔ within (ι i) (ι x) r)

/-- The data set `ds'` of the part consists of the rows of `ds` for its points. -/
structure SubData [FloatOps F] (m : Nat) (ι : Nat → Nat) (ds ds' : DataSet F) : Prop where
  num : ds'.n = m
  dims : ds'.dims = ds.dims
  coord : ∀ i t, i < m → t < ds.dims → ds'.coord i t = ds.coord (ι i) t

/-- The labels `b'` of the part divide its points into clusters in the same way as the labels `b` of all points: the same points are unassigned, and the same points are together. -/
def SameInPart (cfg : Cfg) (m : Nat) (ι : Nat → Nat) (b b' : Buf Int) : Prop :=
  (∀ i, i < m → (Unassigned cfg b (ι i) ↔ Unassigned cfg b' i)) ∧ ∀ i j, i < m → j < m → (b.get (ι i) = b.get (ι j) ↔ b'.get i = b'.get j)

end Scc
