/-
Specification of constraints that are weaker than others.
-/
import Verif.Spec.Batches
import Verif.Spec.Clustering

namespace Scc

variable {F : Type}

/-- The constraints `o'`, for the primary points `P'` and the type constraints `c'`, are no stronger than those of `o`, `P` and `c`: clusters may be smaller, more points are primary points, a seed radius is
wider or there is none, and fewer points of each type are required. Without types there are no type constraints. Everything else is arbitrary. -/
structure Weaker (n : Nat) (within : Nat → Nat → F → Prop) (o : Options F) (P : List Nat) (c : Nat → Nat) (o' : Options F) (P' : List Nat) (c' : Nat → Nat) : Prop where
  size : o'.sizeConstraint ≤ o.sizeConstraint
  primary : P ⊆ P'
  radius : o'.seedRadius = .useSupplied → o.seedRadius = .useSupplied ∧ ∀ v x, v < n → x < n → within v x o.seedSupplied → within v x o'.seedSupplied
  types : 2 ≤ o'.numTypes → 2 ≤ o.numTypes ∧ o'.numTypes ≤ o.numTypes ∧ ∀ t, t < o'.numTypes → c' t ≤ c t

/-- There is a cluster that meets the constraints: there are enough points of each type and, if there is a seed radius, a primary point with enough points, and enough points of each type, within it. -/
structure CanMeet (n : Nat) (within : Nat → Nat → F → Prop) (o : Options F) (P : List Nat) (lab c : Nat → Nat) : Prop where
  types : 2 ≤ o.numTypes → ∀ t, t < o.numTypes → c t ≤ ((List.range n).filter fun v => lab v = t).length
  radius : o.seedRadius = .useSupplied → ∃ v ∈ P, (∃ l : List Nat, l.Nodup ∧ l.length = o.sizeConstraint ∧ ∀ x ∈ l, x < n ∧ within v x o.seedSupplied) ∧
    (2 ≤ o.numTypes → ∀ t, t < o.numTypes → ∃ l : List Nat, l.Nodup ∧ l.length = c t ∧ ∀ x ∈ l, x < n ∧ lab x = t ∧ within v x o.seedSupplied)

/-- The sizes of digraphs and the number of clusters are within their limits. With batches, the method for unassigned primary points is one that is implemented. Without batches, no radius is estimated and the type
constraints do not add up to more than the size constraint. -/
structure Supported (cfg : Cfg) (n : Nat) (o : Options F) (c : Nat → Nat) : Prop where
  method : ∀ m, o.seedMethod = .method m → ¬ TooBig cfg n o.sizeConstraint m ∧ ¬ UsesEstimate o.primaryMethod o.primaryRadius ∧ ¬ UsesEstimate o.secondaryMethod o.secondaryRadius ∧
    (2 ≤ o.numTypes → ((List.range o.numTypes).map c).sum ≤ o.sizeConstraint)
  batches : o.seedMethod = .batches → BatchFits o n ∧ n ≤ cfg.clabelMax ∧ (o.primaryMethod = .ignore ∨ o.primaryMethod = .anyNeighbor)

end Scc
