/-
Validation of options.
-/
import Verif.Spec.Options
import Verif.Proofs.DigraphLemmas

set_option linter.unusedSimpArgs false
set_option linter.unusedVariables false

namespace Scc

variable {F : Type}

theorem primarySorted_spec {len : Nat} {b : Buf Nat} {P : List Nat} (hl : P.length = len) (hp : ∀ (i x : Nat), P[i]? = some x → b.get i = some x) (h0 : 0 < len) :
    Wp (primarySorted len b) fun r => r = true ↔ P.Pairwise (· < ·) := by
  have hget : ∀ i (hi : i < len), b.get i = some (P[i]'(by omega)) := fun i hi => hp i _ (List.getElem?_eq_getElem (by omega))
  have hsorted : P.Pairwise (· < ·) ↔ ∀ j, j + 1 < len → ∀ x y, P[j]? = some x → P[j + 1]? = some y → x < y := by
    rw [← List.isChain_iff_pairwise, List.isChain_iff_getElem]
    constructor
    · intro h j hj x y hx hy
      rw [List.getElem?_eq_getElem (by omega)] at hx hy
      cases hx; cases hy
      exact h j (by omega)
    · intro h j hj
      exact h j (by omega) _ _ (List.getElem?_eq_getElem (by omega)) (List.getElem?_eq_getElem hj)
  unfold primarySorted
  rw [wp_bind]
  refine wp_forLtB (fun i _ => ∀ j, j + 1 < i → ∀ x y, P[j]? = some x → P[j + 1]? = some y → x < y) (fun _ => ¬ P.Pairwise (· < ·)) (by omega) (fun j hj => by omega) ?_ ?_ ?_
  · intro i _ h1 hi hinv
    rw [wp_bind, wp_eq (hget (i - 1) (by omega)), wp_bind, wp_eq (hget i hi)]
    have e1 : P[i - 1]? = some (P[i - 1]'(by omega)) := List.getElem?_eq_getElem (by omega)
    have e2 : P[i - 1 + 1]? = some (P[i]'(by omega)) := by rw [show i - 1 + 1 = i by omega]; exact List.getElem?_eq_getElem (by omega)
    split
    · rename_i hle
      rw [wp_pure]
      intro hs
      have := hsorted.1 hs (i - 1) (by omega) _ _ e1 e2
      omega
    · rename_i hle
      rw [wp_pure]
      intro j hj x y hx hy
      rcases Nat.lt_or_eq_of_le (show j ≤ i - 1 by omega) with h | rfl
      · exact hinv j (by omega) x y hx hy
      · rw [e1] at hx; rw [e2] at hy; cases hx; cases hy; omega
  · intro _ hinv
    dsimp only
    rw [wp_pure]
    simpa using hsorted.2 hinv
  · intro _ hn
    dsimp only
    rw [wp_pure]
    simpa using hn

variable [FloatOps F]

theorem ValidOptions.ranges {o : Options F} {n : Nat} {P : List Nat} (h : ValidOptions o n P) : RangesOk o n P :=
  ⟨h.version, h.size_two, h.types.imp id fun ⟨h1, _, h2⟩ => ⟨h1, h2⟩, h.seed, h.primary, h.primaryMethod, h.secondaryMethod, h.seedRadius, h.primaryRadius, h.secondaryRadius⟩

theorem not_ranges {o : Options F} {n : Nat} {P : List Nat} (h : RangesOk o n P → False) : ¬ ValidOptions o n P ∧ RejectCode o n P .invalidInput :=
  ⟨fun hv => h hv.ranges, Or.inl ⟨rfl, h⟩⟩

/-- The outcome of the checks. -/
def OptPost (o : Options F) (n : Nat) (P : List Nat) (r : Option (ErrorCode × Nat × String)) : Prop :=
  match r with
  | none => ValidOptions o n P
  | some (e, _, _) => ¬ ValidOptions o n P ∧ RejectCode o n P e

theorem optionsError_spec {o : Options F} {n : Nat} {P : List Nat} {lab c : Nat → Nat} (ha : OptionArrays n o P lab c) :
    Wp (optionsError o n) fun r => match r with
      | none => ValidOptions o n P
      | some (e, _, _) => ¬ ValidOptions o n P ∧ RejectCode o n P e := by
  unfold optionsError
  split
  · rename_i h; rw [wp_some]; exact not_ranges fun hv => h hv.version
  rename_i h1
  push Not at h1
  split
  · rename_i h; rw [wp_some]; exact not_ranges fun hv => by have := hv.size_two; omega
  rename_i h2
  split
  · rename_i h; rw [wp_some]; exact ⟨fun hv => by have := hv.size_le; omega, Or.inr (Or.inl ⟨rfl, h⟩)⟩
  rename_i h3
  have htypes : match typeOptionsError o n with
      | some (e, _, _) => ¬ ValidOptions o n P ∧ RejectCode o n P e
      | none => o.numTypes < 2 ∧ o.typeConstraints = none ∧ o.lenTypeLabels = 0 ∧ o.typeLabels = none ∨
          2 ≤ o.numTypes ∧ o.numTypes ≤ 65535 ∧ o.typeConstraints ≠ none ∧ n ≤ o.lenTypeLabels ∧ o.typeLabels ≠ none := by
    unfold typeOptionsError typeLabelMax
    by_cases t1 : o.numTypes < 2
    · rw [if_pos t1]
      have hv : ∀ hv : RangesOk o n P, o.typeConstraints = none ∧ o.lenTypeLabels = 0 ∧ o.typeLabels = none := fun hv => by
        rcases hv.types with h | h
        · exact h.2
        · omega
      by_cases t2 : o.typeConstraints.isSome
      · rw [if_pos t2]; exact not_ranges fun h => by rw [(hv h).1] at t2; simp at t2
      rw [if_neg t2]
      by_cases t3 : o.lenTypeLabels ≠ 0
      · rw [if_pos t3]; exact not_ranges fun h => t3 (hv h).2.1
      rw [if_neg t3]
      by_cases t4 : o.typeLabels.isSome
      · rw [if_pos t4]; exact not_ranges fun h => by rw [(hv h).2.2] at t4; simp at t4
      rw [if_neg t4]
      exact Or.inl ⟨t1, by simpa using t2, by simpa using t3, by simpa using t4⟩
    · rw [if_neg t1]
      have hv : ∀ hv : RangesOk o n P, o.typeConstraints ≠ none ∧ n ≤ o.lenTypeLabels ∧ o.typeLabels ≠ none := fun hv => by
        rcases hv.types with h | h
        · omega
        · exact h.2
      by_cases t2 : 65535 < o.numTypes
      · rw [if_pos t2]; exact ⟨fun h => by rcases h.types with h | h <;> omega, Or.inr (Or.inr (Or.inl ⟨rfl, t2⟩))⟩
      rw [if_neg t2, if_neg t2]
      by_cases t3 : o.typeConstraints.isNone
      · rw [if_pos t3]; exact not_ranges fun h => (hv h).1 (by simpa using t3)
      rw [if_neg t3]
      by_cases t4 : o.lenTypeLabels < n
      · rw [if_pos t4]; exact not_ranges fun h => by have := (hv h).2.1; omega
      rw [if_neg t4]
      by_cases t5 : o.typeLabels.isNone
      · rw [if_pos t5]; exact not_ranges fun h => (hv h).2.2 (by simpa using t5)
      rw [if_neg t5]
      exact Or.inr ⟨by omega, by omega, by simpa using t3, by omega, by simpa using t5⟩
  cases ht : typeOptionsError o n with
  | some e =>
    obtain ⟨e, x, y⟩ := e
    rw [ht] at htypes
    dsimp only at htypes ⊢
    rw [wp_some]; exact htypes
  | none =>
    rw [ht] at htypes
    dsimp only at htypes ⊢
    split
    · rename_i h; rw [wp_some]; exact not_ranges fun hv => hv.seed h
    rename_i h4
    rw [wp_bind]
    have hprim : Wp (primaryOptionsError o) fun r => match r with
        | some (e, _, _) => ¬ ValidOptions o n P ∧ RejectCode o n P e
        | none => o.primary = none ∧ o.lenPrimary = 0 ∨ o.primary ≠ none ∧ o.lenPrimary ≠ 0 ∧ P.Pairwise (· < ·) := by
      unfold primaryOptionsError
      cases hp : o.primary with
      | none =>
        dsimp only
        split
        · rename_i h
          rw [wp_some]
          refine not_ranges fun hv => ?_
          rcases hv.primary with h' | h'
          · omega
          · exact h'.1 hp
        · rename_i h; rw [wp_some]; exact Or.inl ⟨rfl, by omega⟩
      | some b =>
        dsimp only
        split
        · rename_i h
          rw [wp_some]
          refine not_ranges fun hv => ?_
          rcases hv.primary with h' | h'
          · rw [hp] at h'; simp at h'
          · exact h'.2.1 h
        · rename_i h
          rw [wp_bind]
          refine (primarySorted_spec (ha.primary b hp).1 (ha.primary b hp).2 (by omega)).mono ?_
          intro r hr
          cases r with
          | true => rw [if_pos rfl, wp_pure]; exact Or.inr ⟨by simp, h, hr.1 rfl⟩
          | false =>
            rw [if_neg (by simp), wp_pure]
            refine not_ranges fun hv => ?_
            rcases hv.primary with h' | h'
            · rw [hp] at h'; simp at h'
            · exact absurd (hr.2 h'.2.2) (by simp)
    refine hprim.mono ?_
    rintro (_ | ⟨e, x, y⟩) hpr
    · dsimp only at hpr ⊢
      rw [wp_pure]
      show OptPost o n P _
      unfold methodOptionsError
      by_cases m1 : o.primaryMethod = .unknown
      · have h := m1; rw [if_pos m1]; exact not_ranges fun hv => hv.primaryMethod h
      rw [if_neg m1]
      by_cases m2 : o.secondaryMethod = .anyNeighbor
      · have h := m2; rw [if_pos m2]; exact not_ranges fun hv => by have := hv.secondaryMethod; rw [h] at this; simp at this
      rw [if_neg m2]
      by_cases m3 : o.secondaryMethod = .unknown
      · have h := m3; rw [if_pos m3]; exact not_ranges fun hv => by have := hv.secondaryMethod; rw [h] at this; simp at this
      rw [if_neg m3]
      by_cases m4 : o.seedRadius ≠ .noRadius ∧ o.seedRadius ≠ .useSupplied
      · have h := m4; rw [if_pos m4]; exact not_ranges fun hv => by rcases hv.seedRadius.1 with h' | h' <;> simp [h'] at h
      rw [if_neg m4]
      by_cases m5 : o.seedRadius = .useSupplied ∧ FloatOps.le o.seedSupplied FloatOps.zero = true
      · have h := m5; rw [if_pos m5]; exact not_ranges fun hv => by have := hv.seedRadius.2.2 h.1; rw [h.2] at this; simp at this
      rw [if_neg m5]
      by_cases m6 : o.primaryRadius = .unknown
      · have h := m6; rw [if_pos m6]; exact not_ranges fun hv => hv.primaryRadius.1 h
      rw [if_neg m6]
      by_cases m7 : o.primaryRadius = .useSupplied ∧ FloatOps.le o.primarySupplied FloatOps.zero = true
      · have h := m7; rw [if_pos m7]; exact not_ranges fun hv => by have := hv.primaryRadius.2 h.1; rw [h.2] at this; simp at this
      rw [if_neg m7]
      by_cases m8 : o.secondaryRadius = .unknown
      · have h := m8; rw [if_pos m8]; exact not_ranges fun hv => hv.secondaryRadius.1 h
      rw [if_neg m8]
      by_cases m9 : o.secondaryRadius = .useSupplied ∧ FloatOps.le o.secondarySupplied FloatOps.zero = true
      · have h := m9; rw [if_pos m9]; exact not_ranges fun hv => by have := hv.secondaryRadius.2 h.1; rw [h.2] at this; simp at this
      rw [if_neg m9]
      have hsm : o.secondaryMethod = .ignore ∨ o.secondaryMethod = .closestAssigned ∨ o.secondaryMethod = .closestSeed := by
        cases hs : o.secondaryMethod <;> simp_all
      have hsr : o.seedRadius = .noRadius ∨ o.seedRadius = .useSupplied := by
        by_contra hc
        push Not at hc
        exact m4 hc
      have hvr : ValidRadius o.seedRadius o.seedSupplied :=
        ⟨by rcases hsr with h | h <;> simp [h], fun h => by simpa [h] using m5⟩
      have hb : (o.seedMethod = .batches → o.numTypes < 2 ∧ o.secondaryMethod = .ignore ∧ o.primaryRadius = .useSeedRadius) → ValidOptions o n P := fun hb =>
        ⟨h1, by omega, by omega, htypes, h4, hpr, m1, hsm, ⟨hsr, hvr⟩, ⟨m6, fun h => by simpa [h] using m7⟩, ⟨m8, fun h => by simpa [h] using m9⟩, hb⟩
      by_cases hbat : o.seedMethod = .batches
      · rw [if_pos hbat]
        by_cases b1 : 2 ≤ o.numTypes
        · rw [if_pos b1]
          exact ⟨fun hv => by have := (hv.batches hbat).1; omega, Or.inr (Or.inr (Or.inr ⟨rfl, hbat, Or.inl b1⟩))⟩
        rw [if_neg b1]
        by_cases b2 : o.secondaryMethod ≠ .ignore
        · rw [if_pos b2]
          exact ⟨fun hv => b2 (hv.batches hbat).2.1, Or.inr (Or.inr (Or.inr ⟨rfl, hbat, Or.inr (Or.inl b2)⟩))⟩
        rw [if_neg b2]
        by_cases b3 : o.primaryRadius ≠ .useSeedRadius
        · rw [if_pos b3]
          exact ⟨fun hv => b3 (hv.batches hbat).2.2, Or.inr (Or.inr (Or.inr ⟨rfl, hbat, Or.inr (Or.inr b3)⟩))⟩
        rw [if_neg b3]
        exact hb fun _ => ⟨by omega, by simpa using b2, by simpa using b3⟩
      · rw [if_neg hbat]
        exact hb fun h => absurd h hbat
    · dsimp only at hpr ⊢
      rw [wp_pure]; exact hpr

/-- The check of options as an operation: it only changes the error record, and only when it rejects. -/
theorem checkClusterOptions_spec {o : Options F} {n : Nat} {P : List Nat} {lab c : Nat → Nat} (ha : OptionArrays n o P lab c) (w : World) :
    WpM (checkClusterOptions o n) w fun e w' => w'.fails = w.fails ∧ w'.live = w.live ∧ (e = .ok ∧ w' = w ∧ ValidOptions o n P ∨ e ≠ .ok ∧ w'.err.code = e ∧ ¬ ValidOptions o n P ∧ RejectCode o n P e) := by
  unfold checkClusterOptions
  rw [wpM_bind, wpM_useK]
  refine ⟨by simp, (optionsError_spec ha).mono ?_⟩
  rintro (_ | ⟨e, line, msg⟩) h
  · dsimp only at h ⊢
    rw [wpM_pure]; exact ⟨rfl, rfl, Or.inl ⟨rfl, rfl, h⟩⟩
  · dsimp only at h ⊢
    refine wpM_mkErr fun w1 l1 l2 l3 => ⟨l1, l2, Or.inr ⟨?_, by rw [l3], h.1, h.2⟩⟩
    rcases h.2 with h | h | h | h <;> simp [h]

end Scc
