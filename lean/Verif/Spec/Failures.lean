/-
Specification of failing requests: schedules of failures, and calls that nothing else can stop.
-/
import Verif.Proofs.Call

namespace Scc

variable {F : Type} [FloatOps F]

/-- The world with another schedule of failures. -/
def World.withFails (w : World) (f : Nat → Bool → Bool) : World := { w with fails := f }

/-- Exactly the requests whose result the code does not check fail. -/
def OnlyUncheckedFail (f : Nat → Bool → Bool) : Prop := ∀ i, f i true = false ∧ f i false = true

/-- An accepted call that only a failing request or a refusing back end can stop: the digraph and the labels fit into their types, there are seeds, the estimated
radius (if one is asked for) is positive, and the type constraints do not add up to more than the size constraint. -/
structure Solvable (cfg : Cfg) (A : Criterion F) (dist : Nat → Nat → F) (n : Nat) (o : Options F) (m : SeedMethod) (P : List Nat) (lab c : Nat → Nat) : Prop where
  arcs : n * o.sizeConstraint ≤ cfg.arcMax
  labels : n ≤ cfg.clabelMax
  seeds : ¬ NoSeeds A n o P lab c
  estimate : ∀ rows order, NngStored cfg A n o P lab c rows → MethodOrder m rows n order → ¬ BadEstimate dist o rows (greedySeeds rows order)
  types : 2 ≤ o.numTypes → ((List.range o.numTypes).map c).sum ≤ o.sizeConstraint

end Scc
