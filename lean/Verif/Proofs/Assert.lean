/-
Rules for showing that a function with assertions does the same as the function without: the assertions hold in every state that is reached.
-/
import Verif.Model.Assert

namespace Scc

theorem asrt_bind {p : Prop} [Decidable p] {α : Type} {f : Unit → Option α} (h : p) : (asrt p >>= f) = f () := by
  unfold asrt; rw [if_pos h]; rfl

theorem asrtM_bind {p : Prop} [Decidable p] {α : Type} {f : Unit → M α} (h : p) : (asrtM p >>= f) = f () := by
  funext w
  show (asrtM p w).bind _ = _
  have : asrtM p w = some ((), w) := by
    unfold asrtM useK asrt
    rw [if_pos (by simp), if_pos h]; rfl
  rw [this]; rfl

theorem obind_eq {α β : Type} {x y : Option α} {f g : α → Option β} {Q : α → Prop} (h : x = y) (hw : Wp y Q) (hk : ∀ a, Q a → f a = g a) : (x >>= f) = (y >>= g) := by
  subst h
  obtain ⟨a, rfl, hq⟩ := hw
  exact hk a hq

theorem bind_eq_some {α β : Type} {x : Option α} {f g : α → Option β} (hk : ∀ a, x = some a → f a = g a) : (x >>= f) = (x >>= g) := by
  cases x with
  | none => rfl
  | some a => exact hk a rfl

theorem get_bind {α β : Type} {x : Option α} {a : α} {f : α → Option β} (h : x = some a) : (x >>= f) = f a := by subst h; rfl

theorem get_both {α β : Type} {x : Option α} {a : α} {f g : α → Option β} (h : x = some a) (hk : f a = g a) : (x >>= f) = (x >>= g) := by subst h; exact hk

theorem ite_both {α : Type} {c : Prop} [Decidable c] {a a' b b' : α} (h1 : c → a = a') (h2 : ¬ c → b = b') : (if c then a else b) = if c then a' else b' := by
  by_cases h : c
  · rw [if_pos h, if_pos h, h1 h]
  · rw [if_neg h, if_neg h, h2 h]

theorem mbind_eq {α β : Type} {x y : M α} {f g : α → M β} {w : World} {Q : α → World → Prop} (h : x w = y w) (hw : WpM y w Q) (hk : ∀ a w', Q a w' → f a w' = g a w') : (x >>= f) w = (y >>= g) w := by
  obtain ⟨a, w', hy, hq⟩ := hw
  show (x w).bind (fun p => f p.1 p.2) = (y w).bind (fun p => g p.1 p.2)
  rw [h, hy]
  exact hk a w' hq

/-- The rest is the same. -/
theorem mbind_same {α β : Type} {x y : M α} {f : α → M β} {w : World} (h : x w = y w) : (x >>= f) w = (y >>= f) w := by
  show (x w).bind (fun p => f p.1 p.2) = (y w).bind (fun p => f p.1 p.2)
  rw [h]

theorem forLt_eq {σ : Type} {f g : Nat → σ → Option σ} (I : Nat → σ → Prop) {lo hi : Nat} {s : σ} (h0 : I lo s)
    (hs : ∀ i s, lo ≤ i → i < hi → I i s → f i s = g i s ∧ Wp (g i s) (I (i + 1))) : forLt lo hi s f = forLt lo hi s g := by
  unfold forLt
  suffices H : ∀ n lo s, I lo s → (∀ i s, lo ≤ i → i < lo + n → I i s → f i s = g i s ∧ Wp (g i s) (I (i + 1))) →
      (List.range' lo n).foldlM (fun s i => f i s) s = (List.range' lo n).foldlM (fun s i => g i s) s from
    H _ lo s h0 fun i s h1 h2 => hs i s h1 (by omega)
  clear hs h0
  intro n
  induction n with
  | zero => intros; rfl
  | succ n ih =>
    intro lo s h0 hs
    rw [List.range'_succ, List.foldlM_cons, List.foldlM_cons]
    obtain ⟨h1, h2⟩ := hs lo s le_rfl (by omega) h0
    exact obind_eq h1 h2 fun a ha => ih (lo + 1) a ha fun i s h3 h4 => hs i s (by omega) (by omega)

theorem forNe_eq {σ : Type} {f g : Nat → σ → Option σ} (I : Nat → σ → Prop) {lo hi : Nat} {s : σ} (h0 : I lo s)
    (hs : ∀ i s, lo ≤ i → i < hi → I i s → f i s = g i s ∧ Wp (g i s) (I (i + 1))) : forNe lo hi s f = forNe lo hi s g := by
  unfold forNe
  by_cases h : lo ≤ hi
  · rw [if_pos h, if_pos h]; exact forLt_eq I h0 hs
  · rw [if_neg h, if_neg h]

theorem useK_eq {α : Type} {ids : List Nat} {x y : Option α} {w : World} (h : x = y) : useK ids x w = useK ids y w := by rw [h]

theorem useK_eq_fun {α : Type} {ids : List Nat} {x y : Option α} (h : x = y) : useK ids x = useK ids y := by rw [h]

theorem foldlM_eq {α σ : Type} {f g : σ → α → Option σ} (I : List α → σ → Prop) (l : List α) {s : σ} (h0 : I [] s)
    (hs : ∀ pre a post s, l = pre ++ a :: post → I pre s → f s a = g s a ∧ Wp (g s a) (I (pre ++ [a]))) : l.foldlM f s = l.foldlM g s := by
  suffices H : ∀ (post pre : List α) (s : σ), l = pre ++ post → I pre s → post.foldlM f s = post.foldlM g s from H l [] s rfl h0
  intro post
  induction post with
  | nil => intros; rfl
  | cons a post ih =>
    intro pre s hl hi
    rw [List.foldlM_cons, List.foldlM_cons]
    obtain ⟨h1, h2⟩ := hs pre a post s hl hi
    exact obind_eq h1 h2 fun s' hs' => ih (pre ++ [a]) s' (by simp [hl]) hs'

theorem foldB_eq {α σ ρ : Type} {f g : σ → α → Option (Ctl σ ρ)} (I : List α → σ → Prop) (l : List α) {s : σ} (h0 : I [] s)
    (hs : ∀ pre a post s, l = pre ++ a :: post → I pre s → f s a = g s a ∧ Wp (g s a) (fun c => match c with | .next s' => I (pre ++ [a]) s' | .stop _ => True)) :
    foldB f s l = foldB g s l := by
  suffices H : ∀ (post pre : List α) (s : σ), l = pre ++ post → I pre s → foldB f s post = foldB g s post from H l [] s rfl h0
  intro post
  induction post with
  | nil => intros; rfl
  | cons a post ih =>
    intro pre s hl hi
    rw [foldB, foldB]
    obtain ⟨h1, h2⟩ := hs pre a post s hl hi
    refine obind_eq h1 h2 fun c hc => ?_
    cases c with
    | next s' => exact ih (pre ++ [a]) s' (by simp [hl]) hc
    | stop r => rfl

theorem forLtB_eq {σ ρ : Type} {f g : Nat → σ → Option (Ctl σ ρ)} (I : Nat → σ → Prop) {lo hi : Nat} {s : σ} (h0 : I lo s)
    (hs : ∀ i s, lo ≤ i → i < hi → I i s → f i s = g i s ∧ Wp (g i s) (fun c => match c with | .next s' => I (i + 1) s' | .stop _ => True)) :
    forLtB lo hi s f = forLtB lo hi s g := by
  unfold forLtB
  suffices H : ∀ n lo s, I lo s → (∀ i s, lo ≤ i → i < lo + n → I i s → f i s = g i s ∧ Wp (g i s) (fun c => match c with | .next s' => I (i + 1) s' | .stop _ => True)) →
      foldB (fun s i => f i s) s (List.range' lo n) = foldB (fun s i => g i s) s (List.range' lo n) from
    H _ lo s h0 fun i s h1 h2 => hs i s h1 (by omega)
  clear hs h0
  intro n
  induction n with
  | zero => intros; rfl
  | succ n ih =>
    intro lo s h0 hs
    rw [List.range'_succ, foldB, foldB]
    obtain ⟨h1, h2⟩ := hs lo s le_rfl (by omega) h0
    refine obind_eq h1 h2 fun c hc => ?_
    cases c with
    | next s' => exact ih (lo + 1) s' hc fun i s h3 h4 => hs i s (by omega) (by omega)
    | stop r => rfl

theorem foldBM_eq {α σ ρ : Type} {f g : σ → α → M (Ctl σ ρ)} (I : List α → σ → World → Prop) (l : List α) {s : σ} {w : World} (h0 : I [] s w)
    (hs : ∀ pre a post s w, l = pre ++ a :: post → I pre s w →
      f s a w = g s a w ∧ WpM (g s a) w (fun c w' => match c with | .next s' => I (pre ++ [a]) s' w' | .stop _ => True)) :
    foldBM f s l w = foldBM g s l w := by
  suffices H : ∀ (post pre : List α) (s : σ) (w : World), l = pre ++ post → I pre s w → foldBM f s post w = foldBM g s post w from H l [] s w rfl h0
  intro post
  induction post with
  | nil => intros; rfl
  | cons a post ih =>
    intro pre s w hl hi
    rw [foldBM, foldBM]
    obtain ⟨h1, h2⟩ := hs pre a post s w hl hi
    refine mbind_eq h1 h2 fun c w' hc => ?_
    cases c with
    | next s' => exact ih (pre ++ [a]) s' w' (by simp [hl]) hc
    | stop r => rfl

/-- An allocation. -/
theorem wpM_allocE {α : Type} {init : Buf α} {c : Bool} {w : World} :
    WpM (alloc init c) w fun r w' => w'.fails = w.fails ∧ w'.live = ptrOwn r + w.live ∧ ∀ b, r = some b → b.buf = init :=
  wpM_alloc (fun w' _ f l _ => ⟨f, by rw [l]; simp, by simp⟩) fun i w' f l _ => ⟨f, by rw [l]; simp, by rintro b h; cases h; rfl⟩

end Scc
