/-
Rules for showing that a run has undefined behaviour.
-/
import Verif.Proofs.Call

set_option linter.unusedSimpArgs false
set_option linter.unusedVariables false

namespace Scc

variable {F : Type} [FloatOps F]

/-- A computation is undefined if its continuation is, whatever the outcome of the first part. -/
theorem none_bind {α β : Type} {x : M α} {f : α → M β} {w : World} (h : WpM x w fun a w' => f a w' = none) : (x >>= f) w = none := by
  obtain ⟨a, w', h1, h2⟩ := h
  show (StateT.bind x f) w = none
  unfold StateT.bind
  rw [h1]
  exact h2

theorem bind_eq_of {α β : Type} {x : M α} {f g : α → M β} {w : World} (h : WpM x w fun a w' => f a w' = g a w') : (x >>= f) w = (x >>= g) w := by
  obtain ⟨a, w', h1, h2⟩ := h
  show (StateT.bind x f) w = (StateT.bind x g) w
  unfold StateT.bind
  rw [h1]
  exact h2

theorem none_bind_left {α β : Type} {x : M α} {f : α → M β} {w : World} (h : x w = none) : (x >>= f) w = none := by
  show (StateT.bind x f) w = none
  unfold StateT.bind
  rw [h]; rfl

theorem useK_none {α : Type} {ids : List Nat} {k : Option α} {w : World} (h : k = none) : useK ids k w = none := by
  subst h
  unfold useK
  split <;> rfl

theorem forLt_none {σ : Type} {lo hi : Nat} {s : σ} {body : Nat → σ → Option σ} (h : lo < hi) (hb : body lo s = none) : forLt lo hi s body = none := by
  unfold forLt
  obtain ⟨m, hm⟩ : ∃ m, hi - lo = m + 1 := ⟨hi - lo - 1, by omega⟩
  rw [hm, List.range'_succ, List.foldlM_cons, hb]; rfl

theorem wpM_allocN {α : Type} {b : Buf α} {w : World} (hw : w.NoFail) {Q : Option (Blk α) → World → Prop}
    (h : ∀ i w', w'.fails = w.fails → w'.live = {i} + w.live → w'.err = w.err → Q (some ⟨i, b⟩) w') : WpM (alloc b) w Q :=
  wpM_alloc (fun w' h0 _ _ _ => absurd hw h0) h

/-- After the checks, an accepted call continues with the algorithm. -/
theorem scClustering_accepted {cfg : Cfg} {spi : Spi F} {o : Options F} {ob : ClObj} {P : List Nat} {lab c : Nat → Nat} {w : World} (hl : ob.id ∈ w.live) (ha : OptionArrays ob.cl.n o P lab c)
    (hacc : Accepts cfg spi.valid spi.numPoints o ob.cl P) (h : scAccepted cfg spi o ob w = none) : scClustering cfg spi o (some ob) w = none := by
  unfold scClustering
  refine none_bind ?_
  unfold isInitialized
  rw [wpM_bind]
  unfold touch
  rw [wpM_useK]
  refine ⟨by simpa using hl, ?_⟩
  rw [wp_some, wpM_pure, hacc.initialized]
  dsimp only
  rw [if_neg (by simp [hacc.valid]), if_neg (by simpa using hacc.points)]
  refine none_bind ((checkClusterOptions_spec ha w).mono ?_)
  rintro e w1 ⟨f1, f2, ⟨rfl, rfl, hv⟩ | ⟨he, herr, hv, hc⟩⟩
  · rw [if_neg (by simp), if_neg (by simpa using hacc.empty)]
    unfold scAccepted touch at h
    exact h
  · exact absurd hacc.options hv

end Scc
