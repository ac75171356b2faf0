/-
Specification for calls whose data points, and clusters, are numbered differently.
-/
import Verif.Spec.Check
import Verif.Spec.Relax
import Verif.Spec.Stats

namespace Scc

variable {F : Type}

/-- The numbers `0, ..., n - 1` are exchanged: what was `v` becomes `σ v`. -/
structure Renumbering (n : Nat) (σ : Nat → Nat) : Prop where
  range : ∀ v, v < n → σ v < n
  inj : ∀ u v, u < n → v < n → σ u = σ v → u = v

/-- A label with the clusters `0, ..., k - 1` renumbered. Values that are not one of these clusters are kept. -/
def renameLabel (k : Nat) (τ : Nat → Nat) (l : Int) : Int := if 0 ≤ l ∧ l < k then (τ l.toNat : Int) else l

/-- The labels `b'` are those of `b` with points renumbered by `σ` and clusters by `τ`. -/
def RenumberedLabels (n k : Nat) (σ τ : Nat → Nat) (b b' : Buf Int) : Prop := ∀ v, v < n → b'.get (σ v) = (b.get v).map (renameLabel k τ)

/-- The constraints are the same, with points renumbered by `σ`: the same size constraint and type constraints, and the primary points and the types of points renumbered. -/
structure SameConstraints (n : Nat) (σ : Nat → Nat) (o : Options F) (P : List Nat) (lab c : Nat → Nat) (o' : Options F) (P' : List Nat) (lab' c' : Nat → Nat) : Prop where
  size : o'.sizeConstraint = o.sizeConstraint
  given : o'.primary = none ↔ o.primary = none
  primary : ∀ v, v < n → (σ v ∈ P' ↔ v ∈ P)
  numTypes : o'.numTypes = o.numTypes
  types : ∀ v, v < n → lab' (σ v) = lab v
  constraints : ∀ t, t < o.numTypes → c' t = c t

/-- The data points of `ds'` are those of `ds`, renumbered by `σ`. -/
structure SameData [FloatOps F] (σ : Nat → Nat) (ds ds' : DataSet F) : Prop where
  num : ds'.n = ds.n
  dims : ds'.dims = ds.dims
  coord : ∀ i t, i < ds.n → t < ds.dims → ds'.coord (σ i) t = ds.coord i t

end Scc
