/-
Specification of valid options, and of what the option arrays supplied by the user contain.
-/
import Verif.Model.Options
import Verif.Spec.Seeds
import Verif.Spec.Spi

namespace Scc

variable {F : Type}

/-- The arrays that the options point to are as long as the options say and are initialised: `P` are the primary points (all points when there is no
list), `lab` the types of the points and `c` the type constraints. Primary points and types are in range. The code cannot check any of this. -/
structure OptionArrays (n : Nat) (o : Options F) (P : List Nat) (lab c : Nat → Nat) : Prop where
  all : o.primary = none → P = List.range n
  primary : ∀ b, o.primary = some b → P.length = o.lenPrimary ∧ ∀ (i x : Nat), P[i]? = some x → b.get i = some x
  range : ∀ x ∈ P, x < n
  labels : ∀ b, 2 ≤ o.numTypes → o.typeLabels = some b → ∀ v, v < n → b.get v = some (lab v) ∧ lab v < o.numTypes
  constraints : ∀ b, 2 ≤ o.numTypes → o.typeConstraints = some b → ∀ t, t < o.numTypes → b.get t = some (c t)

/-- Limits under which the sizes computed by the code do not overflow, and the requirement that some type constraint is positive. -/
structure WithinLimits (cfg : Cfg) (n : Nat) (o : Options F) (c : Nat → Nat) : Prop where
  size : n * o.sizeConstraint ≤ cfg.sizeMax
  types : 2 ≤ o.numTypes → (∃ t < o.numTypes, 0 < c t) ∧ ((List.range o.numTypes).map c).sum < 2 ^ 32

/-- A radius setting is valid: the method is known and a supplied radius is not `<= 0`. -/
def ValidRadius [FloatOps F] (m : RadiusMethod) (r : F) : Prop := m ≠ .unknown ∧ (m = .useSupplied → FloatOps.le r FloatOps.zero = false)

/-- Options within the documented ranges, for `n` data points and the primary points `P`. -/
structure ValidOptions [FloatOps F] (o : Options F) (n : Nat) (P : List Nat) : Prop where
  version : o.version = optionsVersion
  size_two : 2 ≤ o.sizeConstraint
  size_le : o.sizeConstraint ≤ n
  types : o.numTypes < 2 ∧ o.typeConstraints = none ∧ o.lenTypeLabels = 0 ∧ o.typeLabels = none ∨
    2 ≤ o.numTypes ∧ o.numTypes ≤ 65535 ∧ o.typeConstraints ≠ none ∧ n ≤ o.lenTypeLabels ∧ o.typeLabels ≠ none
  seed : o.seedMethod ≠ .unknown
  primary : o.primary = none ∧ o.lenPrimary = 0 ∨ o.primary ≠ none ∧ o.lenPrimary ≠ 0 ∧ P.Pairwise (· < ·)
  primaryMethod : o.primaryMethod ≠ .unknown
  secondaryMethod : o.secondaryMethod = .ignore ∨ o.secondaryMethod = .closestAssigned ∨ o.secondaryMethod = .closestSeed
  seedRadius : (o.seedRadius = .noRadius ∨ o.seedRadius = .useSupplied) ∧ ValidRadius o.seedRadius o.seedSupplied
  primaryRadius : ValidRadius o.primaryRadius o.primarySupplied
  secondaryRadius : ValidRadius o.secondaryRadius o.secondarySupplied
  batches : o.seedMethod = .batches → o.numTypes < 2 ∧ o.secondaryMethod = .ignore ∧ o.primaryRadius = .useSeedRadius

/-- The seed radius that applies. -/
def seedLimit (o : Options F) : Option F := if o.seedRadius = .useSupplied then some o.seedSupplied else none

/-- The radius that applies in an assignment stage with method `um` and radius setting `m`, `r`, when `est` is the estimated radius. -/
def stageRadius (o : Options F) (um : UnassignedMethod) (m : RadiusMethod) (r est : F) : Option F :=
  match um, m with
  | .ignore, _ => none
  | _, .noRadius => none
  | _, .useSupplied => some r
  | _, .useSeedRadius => seedLimit o
  | _, .useEstimated => some est
  | _, .unknown => none

/-- The conditions of `ValidOptions` whose violation is reported as invalid input. -/
structure RangesOk [FloatOps F] (o : Options F) (n : Nat) (P : List Nat) : Prop where
  version : o.version = optionsVersion
  size_two : 2 ≤ o.sizeConstraint
  types : o.numTypes < 2 ∧ o.typeConstraints = none ∧ o.lenTypeLabels = 0 ∧ o.typeLabels = none ∨
    2 ≤ o.numTypes ∧ o.typeConstraints ≠ none ∧ n ≤ o.lenTypeLabels ∧ o.typeLabels ≠ none
  seed : o.seedMethod ≠ .unknown
  primary : o.primary = none ∧ o.lenPrimary = 0 ∨ o.primary ≠ none ∧ o.lenPrimary ≠ 0 ∧ P.Pairwise (· < ·)
  primaryMethod : o.primaryMethod ≠ .unknown
  secondaryMethod : o.secondaryMethod = .ignore ∨ o.secondaryMethod = .closestAssigned ∨ o.secondaryMethod = .closestSeed
  seedRadius : (o.seedRadius = .noRadius ∨ o.seedRadius = .useSupplied) ∧ ValidRadius o.seedRadius o.seedSupplied
  primaryRadius : ValidRadius o.primaryRadius o.primarySupplied
  secondaryRadius : ValidRadius o.secondaryRadius o.secondarySupplied

/-- The code that rejected options are reported with. -/
def RejectCode [FloatOps F] (o : Options F) (n : Nat) (P : List Nat) (e : ErrorCode) : Prop :=
  e = .invalidInput ∧ ¬ RangesOk o n P ∨
  e = .noSolution ∧ n < o.sizeConstraint ∨
  e = .tooLarge ∧ 65535 < o.numTypes ∨
  e = .notImplemented ∧ o.seedMethod = .batches ∧ (2 ≤ o.numTypes ∨ o.secondaryMethod ≠ .ignore ∨ o.primaryRadius ≠ .useSeedRadius)

end Scc
