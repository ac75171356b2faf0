/-
Specification of searches that determine their answers, and of types under new names.
-/
import Verif.Spec.Nng

namespace Scc

variable {F : Type}

/-- All acceptable answers to a query are the same. -/
def OneAnswer (A : Criterion F) : Prop := ∀ set k R q a a', A set k R q a → A set k R q a' → a = a'

/-- The types of `lab'`, `c'` that have constraints are those of `lab`, `c` under new names: `π t` is the new name of `t`. -/
structure Renamed (n T T' : Nat) (lab c lab' c' : Nat → Nat) (π : Nat → Nat) : Prop where
  lt : ∀ t, t < T → 0 < c t → π t < T'
  con : ∀ t, t < T → 0 < c t → c' (π t) = c t
  points : ∀ t, t < T → 0 < c t → ∀ v, v < n → (lab' v = π t ↔ lab v = t)
  inj : ∀ t s, t < T → s < T → 0 < c t → 0 < c s → π t = π s → t = s
  onto : ∀ s, s < T' → 0 < c' s → ∃ t, t < T ∧ 0 < c t ∧ π t = s

end Scc
