/-
Specification of how points that no seed captures are assigned to clusters.
-/
import Verif.Spec.Clustering

namespace Scc

variable {F : Type}

/-- The points whose cluster may be joined after a search: the seeds with `SCC_UM_CLOSEST_SEED`, all points that a seed captured with `SCC_UM_CLOSEST_ASSIGNED`, and none with other methods. -/
def Candidate (N : Nat → List Nat) (seeds : List Nat) (um : UnassignedMethod) (x : Nat) : Prop :=
  match um with
  | .closestSeed => x ∈ seeds
  | .closestAssigned => ∃ j, CapturedBy N seeds j x
  | _ => False

/-- A nearest candidate is in cluster `i` and, if there is a radius, it is within the radius of `v`. -/
def JoinsNearest (le : Nat → Nat → Nat → Prop) (within : Nat → Nat → F → Prop) (N : Nat → List Nat) (seeds : List Nat) (um : UnassignedMethod) (R : Option F) (v i : Nat) : Prop :=
  ∃ x, Candidate N seeds um x ∧ CapturedBy N seeds i x ∧ (∀ r, R = some r → within v x r) ∧ ∀ y, Candidate N seeds um y → le v x y

/-- There is a radius and no candidate within the radius of `v` (or there are no candidates). -/
def NothingNear (within : Nat → Nat → F → Prop) (N : Nat → List Nat) (seeds : List Nat) (um : UnassignedMethod) (R : Option F) (v : Nat) : Prop :=
  ∀ x, Candidate N seeds um x → ∃ r, R = some r ∧ ¬ within v x r

/-- The first captured point in the neighbourhood of `v` was captured by seed `i`. -/
def JoinsNeighbor (N : Nat → List Nat) (seeds : List Nat) (v i : Nat) : Prop :=
  ∃ l₁ x l₂, N v = l₁ ++ x :: l₂ ∧ CapturedBy N seeds i x ∧ ∀ y ∈ l₁, ∀ j, ¬ CapturedBy N seeds j y

/-- Are primary points assigned to clusters of their neighbours? This is so with `SCC_UM_ANY_NEIGHBOR`, and without types with `SCC_UM_CLOSEST_ASSIGNED`: neighbourhoods are then ordered by
distance. -/
def UsesNeighbors (o : Options F) : Prop := o.primaryMethod = .anyNeighbor ∨ o.numTypes < 2 ∧ o.primaryMethod = .closestAssigned

/-- `v` is not assigned as a primary point: it is not primary, or it has no captured neighbour (if these count) and no candidate near it. -/
def LeftOver (within : Nat → Nat → F → Prop) (N : Nat → List Nat) (seeds : List Nat) (o : Options F) (R : Option F) (P : List Nat) (v : Nat) : Prop :=
  v ∈ P → (UsesNeighbors o → ∀ x ∈ N v, ∀ j, ¬ CapturedBy N seeds j x) ∧ NothingNear within N seeds o.primaryMethod R v

/-- Enough points for a cluster within the radius `r` of `v`: `S` points, and `c t` points of each type `t`. -/
def EnoughOfTypes (within : Nat → Nat → F → Prop) (n S T : Nat) (lab c : Nat → Nat) (v : Nat) (r : F) : Prop :=
  (∃ l : List Nat, l.Nodup ∧ l.length = S ∧ ∀ x ∈ l, x < n ∧ within v x r) ∧
  ∀ t, t < T → ∃ l : List Nat, l.Nodup ∧ l.length = c t ∧ ∀ x ∈ l, x < n ∧ lab x = t ∧ within v x r

end Scc
