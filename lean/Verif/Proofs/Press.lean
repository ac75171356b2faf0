/-
The same call in two processes, one of which runs out of memory: rules and digraphs.
-/
import Verif.Spec.Pressure
import Verif.Proofs.Repeat

namespace Scc

variable {α β γ δ : Type}

/-! ### Rules -/

/-- Nothing is bad. -/
abbrev never (_ : α) : Prop := False

/-- Errors that can be due to lack of memory. "Too large" is among them because an array that is allocated when there is little memory has another size. -/
def BadCode (e : ErrorCode) : Prop := e = .noMemory ∨ e = .distSearch ∨ e = .tooLarge

theorem badMemory : BadCode .noMemory := Or.inl rfl
theorem badSearch : BadCode .distSearch := Or.inr (Or.inl rfl)
theorem badLarge : BadCode .tooLarge := Or.inr (Or.inr rfl)
theorem BadCode.ne {e : ErrorCode} (h : BadCode e) : e ≠ .ok := by
  rintro rfl
  rcases h with h | h | h <;> cases h

/-- A NULL pointer. -/
abbrev Lost (p : Option α) : Prop := p = none
/-- A bad error. -/
def BadExc (r : Except ErrorCode α) : Prop := ∃ e, r = .error e ∧ BadCode e
/-- A bad error. -/
abbrev BadPair (r : ErrorCode × α) : Prop := BadCode r.1
/-- A loop that is left with a bad error. -/
def BadCtl (r : Ctl α (ErrorCode × β)) : Prop := ∃ e b, r = .stop (e, b) ∧ BadCode e

variable {B : α → Prop} {A : γ → Prop}

theorem pair_pure {R : α → β → Prop} {a : α} {b : β} (h : R a b) : Pair B R (pure a) (pure b) := by
  intro w v r s hw hv h1 h2
  cases h1
  cases h2
  exact Or.inr ⟨h, hw, hv⟩

theorem pair_try {Q : γ → δ → Prop} {R : α → β → Prop} {x : M γ} {y : M δ} {f : γ → M α} {g : δ → M β} (hx : Pair A Q x y) (hb : ∀ a, A a → Ends (f a) B)
    (hf : ∀ a b, Q a b → Pair B R (f a) (g b)) : Pair B R (x >>= f) (y >>= g) := by
  intro w v r s hw hv h1 h2
  obtain ⟨a, w1, h3, h4⟩ := bind_eq.1 h1
  obtain ⟨b, v1, h5, h6⟩ := bind_eq.1 h2
  rcases hx w v _ _ hw hv h3 h5 with h | ⟨h, hw1, hv1⟩
  · exact Or.inl (hb a h w1 r h4)
  · exact hf a b h w1 v1 r s hw1 hv1 h4 h6

theorem pair_bind {Q : γ → δ → Prop} {R : α → β → Prop} {x : M γ} {y : M δ} {f : γ → M α} {g : δ → M β} (hx : Pair never Q x y) (hf : ∀ a b, Q a b → Pair B R (f a) (g b)) :
    Pair B R (x >>= f) (y >>= g) := pair_try hx (fun _ h => h.elim) hf

theorem pair_new {Q : Option γ → δ → Prop} {R : α → β → Prop} {x : M (Option γ)} {y : M δ} {f : Option γ → M α} {g : δ → M β} (hx : Pair Lost Q x y) (hb : Ends (f none) B)
    (hf : ∀ a b, Q a b → Pair B R (f a) (g b)) : Pair B R (x >>= f) (y >>= g) := pair_try hx (fun _ h => h ▸ hb) hf

theorem pair_mono {A : α → Prop} {Q R : α → β → Prop} {x : M α} {y : M β} (h : Pair A Q x y) (hb : ∀ a, A a → B a) (hr : ∀ a b, Q a b → R a b) : Pair B R x y := by
  intro w v r s hw hv h1 h2
  rcases h w v r s hw hv h1 h2 with h | ⟨h, h'⟩
  · exact Or.inl (hb _ h)
  · exact Or.inr ⟨hr _ _ h, h'⟩

/-- An outcome that is bad is bad whatever else is known about it. -/
theorem pair_split {R : α → β → Prop} {x : M α} {y : M β} (h : Pair never (fun a b => B a ∨ R a b) x y) : Pair B R x y := by
  intro w v r s hw hv h1 h2
  rcases h w v r s hw hv h1 h2 with h | ⟨h | h, h'⟩
  · exact h.elim
  · exact Or.inl h
  · exact Or.inr ⟨h, h'⟩

theorem pair_bad {R : α → β → Prop} {x : M α} {y : M β} (h : Ends x B) : Pair B R x y := fun w _ r _ _ _ h1 _ => Or.inl (h w r h1)

theorem pair_ite {R : α → β → Prop} {c c' : Prop} [Decidable c] [Decidable c'] {x y : M α} {x' y' : M β} (hc : c ↔ c') (hx : c → Pair B R x x') (hy : ¬ c → Pair B R y y') :
    Pair B R (if c then x else y) (if c' then x' else y') := by
  by_cases h : c
  · rw [if_pos h, if_pos (hc.1 h)]; exact hx h
  · rw [if_neg h, if_neg (fun h' => h (hc.2 h'))]; exact hy h

theorem pair_useKR {R : α → β → Prop} {l l' : List Nat} {k : Option α} {k' : Option β} (h : ∀ a b, k = some a → k' = some b → R a b) : Pair never R (useK l k) (useK l' k') := by
  intro w v r s hw hv h1 h2
  unfold useK at h1 h2
  by_cases hl : ∀ i ∈ l, i ∈ w.live
  · rw [if_pos hl] at h1
    by_cases hl' : ∀ i ∈ l', i ∈ v.live
    · rw [if_pos hl'] at h2
      cases k with
      | none => cases h1
      | some a =>
        cases k' with
        | none => cases h2
        | some b =>
          cases h1
          cases h2
          exact Or.inr ⟨h _ _ rfl rfl, hw, hv⟩
    · rw [if_neg hl'] at h2; cases h2
  · rw [if_neg hl] at h1; cases h1

theorem pair_useK {l l' : List Nat} {k k' : Option α} (h : k = k') : Pair never Eq (useK l k) (useK l' k') := pair_useKR fun a b h1 h2 => by
  rw [h, h2] at h1
  exact (Option.some.inj h1).symm

theorem pair_touch {l l' : List Nat} : Pair never Eq (touch l) (touch l') := pair_useK rfl

theorem pair_freeId {i j : Nat} : Pair never Eq (freeId i) (freeId j) := by
  intro w v r s hw hv h1 h2
  unfold freeId at h1 h2
  by_cases hi : i ∈ w.live
  · rw [if_pos hi] at h1
    by_cases hj : j ∈ v.live
    · rw [if_pos hj] at h2
      cases h1
      cases h2
      exact Or.inr ⟨rfl, hw, hv⟩
    · rw [if_neg hj] at h2; cases h2
  · rw [if_neg hi] at h1; cases h1

theorem pair_mkErr {e : ErrorCode} {f : String} {l : Nat} {m : Option String} : Pair never Eq (mkErr e f l m) (mkErr e f l m) := by
  intro w v r s hw hv h1 h2
  cases h1
  cases h2
  exact Or.inr ⟨rfl, hw, hv⟩

theorem pair_resetErr : Pair never Eq resetErr resetErr := by
  intro w v r s hw hv h1 h2
  cases h1
  cases h2
  exact Or.inr ⟨rfl, hw, hv⟩

theorem pair_fail {B : Except ErrorCode α → Prop} {R : α → β → Prop} {e : ErrorCode} {f : String} {l : Nat} {m : Option String} : Pair B (ExcAlike R) (fail e f l m) (fail e f l m) := by
  unfold fail
  exact pair_bind pair_mkErr fun a b h => pair_pure (h ▸ .error)

theorem ends_badFail {e : ErrorCode} {f : String} {l : Nat} {m : Option String} (h : BadCode e) : Ends (fail e f l m : M (Except ErrorCode α)) BadExc := by
  unfold fail
  exact ends_bind ends_mkErr fun a ha => ends_pure ⟨_, rfl, ha ▸ h⟩

theorem ends_badErr {e : ErrorCode} {f : String} {l : Nat} {m : Option String} {a : α} (h : BadCode e) : Ends (do let e ← mkErr e f l m; pure (e, a)) BadPair :=
  ends_bind ends_mkErr fun _ ha => ends_pure (ha ▸ h)

theorem ends_badExc {e : ErrorCode} (h : BadCode e) : Ends (pure (.error e) : M (Except ErrorCode α)) BadExc := ends_pure ⟨_, rfl, h⟩

/-! ### Pointers -/

/-- In these proofs any two blocks correspond: only contents are compared. -/
def anyT : Twin := ⟨0, 0, fun _ _ => True, ErrInfo.none, ErrInfo.none, fun _ _ => false, fun _ _ => false, False, False⟩

theorem nm {i j : Nat} : anyT.Names i j := Or.inl trivial

/-- Pointers to the same contents. -/
abbrev PtrEq : Option (Blk α) → Option (Blk α) → Prop := PtrAlike anyT
/-- Digraphs with the same contents. -/
abbrev DgEq : Digraph → Digraph → Prop := DigraphAlike anyT

theorem pair_freePtr {p q : Option (Blk α)} (h : PtrEq p q) : Pair never Eq (freePtr p) (freePtr q) := by
  cases h with
  | null => exact pair_pure rfl
  | ptr h => exact pair_freeId

theorem fails_alloc {w : World} {init : Buf α} {c : Bool} {r : Option (Blk α) × World} (h : alloc init c w = some r) : r.2.fails = w.fails := by
  unfold alloc at h
  by_cases hf : w.fails w.clock c = true
  · rw [if_pos hf] at h; cases h; rfl
  · rw [if_neg hf] at h; cases h; rfl

theorem alloc_noFail {v : World} {init : Buf α} {c : Bool} {s : Option (Blk α) × World} (hv : v.NoFail) (h : alloc init c v = some s) : s = (some ⟨v.fresh, init⟩, { v with clock := v.fresh + 1, live := {v.fresh} + v.live }) := by
  unfold alloc at h
  rw [if_neg (by rw [hv]; exact Bool.false_ne_true)] at h
  exact (Option.some.inj h).symm

theorem pair_alloc {init : Buf α} : Pair Lost PtrEq (alloc init) (alloc init) := by
  intro w v r s hw hv h1 h2
  cases alloc_noFail hv h2
  unfold alloc at h1
  by_cases hf : w.fails w.clock true = true
  · rw [if_pos hf] at h1; cases h1; exact Or.inl rfl
  · rw [if_neg hf] at h1; cases h1; exact Or.inr ⟨.ptr nm, hw, hv⟩

/-- Requests whose result is not checked do not fail. -/
theorem pair_allocU {init : Buf α} : Pair never (fun p q => ∃ i j, p = some ⟨i, init⟩ ∧ q = some ⟨j, init⟩) (alloc init false) (alloc init false) := by
  intro w v r s hw hv h1 h2
  cases alloc_noFail hv h2
  unfold alloc at h1
  rw [if_neg (by rw [hw]; exact Bool.false_ne_true)] at h1
  cases h1
  exact Or.inr ⟨⟨_, _, rfl, rfl⟩, hw, hv⟩

/-- Requests that may fail without being noticed. -/
theorem pair_allocN {init : Buf α} : Pair never (fun p q => (p = none ∨ ∃ i, p = some ⟨i, init⟩) ∧ ∃ j, q = some ⟨j, init⟩) (alloc init) (alloc init) := by
  intro w v r s hw hv h1 h2
  cases alloc_noFail hv h2
  unfold alloc at h1
  by_cases hf : w.fails w.clock true = true
  · rw [if_pos hf] at h1; cases h1; exact Or.inr ⟨⟨Or.inl rfl, _, rfl⟩, hw, hv⟩
  · rw [if_neg hf] at h1; cases h1; exact Or.inr ⟨⟨Or.inr ⟨_, rfl⟩, _, rfl⟩, hw, hv⟩

/-- Resizing a block. -/
theorem pair_reallocN {b c : Blk α} {n : Nat} : Pair never (fun p q => (p = none ∨ ∃ i, p = some ⟨i, b.buf.resize n⟩) ∧ ∃ j, q = some ⟨j, c.buf.resize n⟩) (reallocBlk b n) (reallocBlk c n) := by
  intro w v r s hw hv h1 h2
  unfold reallocBlk at h1 h2
  by_cases hl : b.id ∈ w.live ∧ 0 < n
  · rw [if_pos hl] at h1
    by_cases hl' : c.id ∈ v.live ∧ 0 < n
    · rw [if_pos hl', if_neg (by rw [hv]; exact Bool.false_ne_true)] at h2
      cases h2
      by_cases hf : w.fails w.clock true = true
      · rw [if_pos hf] at h1; cases h1; exact Or.inr ⟨⟨Or.inl rfl, _, rfl⟩, hw, hv⟩
      · rw [if_neg hf] at h1; cases h1; exact Or.inr ⟨⟨Or.inr ⟨_, rfl⟩, _, rfl⟩, hw, hv⟩
    · rw [if_neg hl'] at h2; cases h2
  · rw [if_neg hl] at h1; cases h1

theorem pair_reallocHead {p q : Option (Blk Nat)} (n : Nat) (h : PtrEq p q) : Pair Lost PtrEq (reallocHead p n) (reallocHead q n) := by
  cases h with
  | null => exact pair_alloc
  | @ptr i j b h =>
    refine pair_split (pair_mono pair_reallocN (fun _ => id) ?_)
    rintro a b ⟨rfl | ⟨i, rfl⟩, j, rfl⟩
    · exact Or.inl rfl
    · exact Or.inr (.ptr nm)

/-- Loops. -/
theorem pair_foldBM {ε : Type} {B : Ctl α γ → Prop} (hB : ∀ a, ¬ B (.next a)) {Q : α → β → Prop} {R : γ → δ → Prop} {f : α → ε → M (Ctl α γ)} {g : β → ε → M (Ctl β δ)}
    (h : ∀ a b e, Q a b → Pair B (CtlAlike Q R) (f a e) (g b e)) (l : List ε) {a : α} {b : β} (hab : Q a b) : Pair B (CtlAlike Q R) (foldBM f a l) (foldBM g b l) := by
  induction l generalizing a b with
  | nil => exact pair_pure (.next hab)
  | cons e l ih =>
    unfold foldBM
    refine pair_try (h a b e hab) (fun c hc => ?_) fun c d hcd => ?_
    · cases c with
      | next c => exact (hB c hc).elim
      | stop c => exact ends_pure hc
    · cases hcd with
      | next h => exact ih h
      | stop h => exact pair_pure (.stop h)

/-! ### Digraphs -/

theorem pair_freeDigraph {d e : Digraph} (h : DgEq d e) : Pair never DgEq (freeDigraph d) (freeDigraph e) := by
  unfold freeDigraph
  exact pair_bind (pair_freePtr h.head) fun _ _ _ => pair_bind (pair_freePtr h.tail) fun _ _ _ => pair_pure (.mk .null .null)

theorem pair_isEmpty {d e : Digraph} (h : DgEq d e) : Pair never Eq (useK d.ids (digraphIsEmpty d)) (useK e.ids (digraphIsEmpty e)) :=
  pair_useK (by unfold digraphIsEmpty; rw [h.tbuf, h.n])

theorem pair_initDigraph (cfg : Cfg) (n m : Nat) : Pair BadExc (ExcAlike DgEq) (initDigraph cfg n m) (initDigraph cfg n m) := by
  unfold initDigraph
  refine pair_ite Iff.rfl (fun _ => pair_fail) fun _ => pair_new pair_alloc (ends_badFail badMemory) fun a b h => ?_
  cases h with
  | null => exact pair_fail
  | ptr h =>
    refine pair_ite Iff.rfl (fun _ => pair_new pair_alloc (ends_next fun _ => ends_badFail badMemory) fun a b h' => ?_) fun _ => pair_pure (.ok (.mk .null (.ptr h)))
    cases h' with
    | null => exact pair_bind (pair_freeDigraph (.mk .null (.ptr h))) fun _ _ _ => pair_fail
    | ptr h' => exact pair_pure (.ok (.mk (.ptr h') (.ptr h)))

theorem pair_emptyDigraph (cfg : Cfg) (n m : Nat) : Pair BadExc (ExcAlike DgEq) (emptyDigraph cfg n m) (emptyDigraph cfg n m) := by
  unfold emptyDigraph
  refine pair_ite Iff.rfl (fun _ => pair_fail) fun _ => pair_new pair_alloc (ends_badFail badMemory) fun a b h => ?_
  cases h with
  | null => exact pair_fail
  | ptr h =>
    refine pair_ite Iff.rfl (fun _ => pair_new pair_alloc (ends_next fun _ => ends_badFail badMemory) fun a b h' => ?_) fun _ => pair_pure (.ok (.mk .null (.ptr h)))
    cases h' with
    | null => exact pair_bind (pair_freeDigraph (.mk .null (.ptr h))) fun _ _ _ => pair_fail
    | ptr h' => exact pair_pure (.ok (.mk (.ptr h') (.ptr h)))

theorem pair_changeArcStorage (cfg : Cfg) {d e : Digraph} (m : Nat) (h : DgEq d e) : Pair BadPair (PairAlike Eq DgEq) (changeArcStorage cfg d m) (changeArcStorage cfg e m) := by
  unfold changeArcStorage
  cases h with
  | mk hh ht =>
    refine pair_ite Iff.rfl (fun _ => pair_bind pair_mkErr fun _ _ he => pair_pure ⟨he, .mk hh ht⟩) fun _ => ?_
    refine pair_ite Iff.rfl (fun _ => pair_pure ⟨rfl, .mk hh ht⟩) fun _ => ?_
    refine pair_ite Iff.rfl (fun _ => pair_bind (pair_freePtr hh) fun _ _ _ => pair_pure ⟨rfl, .mk .null ht⟩) fun _ => ?_
    refine pair_new (pair_reallocHead _ hh) (ends_badErr badMemory) fun a b hab => ?_
    cases hab with
    | null => exact pair_bind pair_mkErr fun _ _ he => pair_pure ⟨he, .mk hh ht⟩
    | ptr h => exact pair_pure ⟨rfl, .mk (.ptr h) ht⟩

theorem pair_deleteLoops (cfg : Cfg) {d e : Digraph} (h : DgEq d e) : Pair BadPair (PairAlike Eq DgEq) (deleteLoops cfg d) (deleteLoops cfg e) := by
  unfold deleteLoops
  refine pair_bind (pair_isEmpty h) fun a b hab => ?_
  subst hab
  refine pair_ite Iff.rfl (fun _ => pair_pure ⟨rfl, h⟩) fun _ => ?_
  refine pair_bind (pair_useK (by rw [h.n, h.hbuf, h.tbuf])) fun a b hab => ?_
  subst hab
  exact pair_changeArcStorage cfg _ (h.set _ _)

/-! ### Output of unknown size

When there is no memory for the greedy estimate of the number of arcs, the code counts them and asks for as much as it needs. The arrays then have different sizes and the same contents. -/

/-- Nothing is stored beyond the end. -/
def Buf.Tight (b : Buf α) : Prop := ∀ i, b.len ≤ i → b.cell i = none

theorem tight_raw (n : Nat) : (Buf.raw n : Buf α).Tight := fun _ _ => rfl

theorem tight_set {b c : Buf α} {i : Nat} {x : α} (h : b.Tight) (hs : b.set i x = some c) : c.Tight ∧ c.len = b.len := by
  unfold Buf.set at hs
  by_cases hi : i < b.len
  · rw [if_pos hi] at hs
    cases hs
    refine ⟨fun j hj => ?_, rfl⟩
    show (if j = i then some x else b.cell j) = none
    rw [if_neg (by rintro rfl; exact absurd hi (Nat.not_lt.2 hj))]
    exact h j hj
  · rw [if_neg hi] at hs; cases hs

theorem tight_resize {b : Buf α} (h : b.Tight) (n : Nat) : (b.resize n).cell = b.cell := by
  funext i
  show (if i < b.len then b.cell i else none) = b.cell i
  by_cases hi : i < b.len
  · rw [if_pos hi]
  · rw [if_neg hi, h i (Nat.not_lt.1 hi)]

/-- The same states, except for the size of the output array. -/
structure SameUnion (l l' : Nat) (a b : UnionSt) : Prop where
  rm : a.rm = b.rm
  tail : a.tail = b.tail
  cnt : a.cnt = b.cnt
  cells : a.head.cell = b.head.cell
  tight1 : a.head.Tight
  tight2 : b.head.Tight
  len1 : a.head.len = l
  len2 : b.head.len = l'

theorem set_cells {b c b' c' : Buf α} {i : Nat} {x : α} (h : b.cell = c.cell) (h1 : b.set i x = some b') (h2 : c.set i x = some c') : b'.cell = c'.cell := by
  unfold Buf.set at h1 h2
  by_cases hi : i < b.len
  · rw [if_pos hi] at h1
    cases h1
    by_cases hj : i < c.len
    · rw [if_pos hj] at h2
      cases h2
      show (fun j => if j = i then some x else b.cell j) = fun j => if j = i then some x else c.cell j
      rw [h]
    · rw [if_neg hj] at h2; cases h2
  · rw [if_neg hi] at h1; cases h1

/-- Two runs of a loop. -/
theorem foldlM_two {σ τ ε : Type} {f : σ → ε → Option σ} {g : τ → ε → Option τ} {I : σ → τ → Prop} (h : ∀ e s t s' t', I s t → f s e = some s' → g t e = some t' → I s' t') (l : List ε) {s s' : σ} {t t' : τ}
    (hi : I s t) (h1 : l.foldlM f s = some s') (h2 : l.foldlM g t = some t') : I s' t' := by
  induction l generalizing s t with
  | nil => cases h1; cases h2; exact hi
  | cons e l ih =>
    rw [List.foldlM_cons] at h1 h2
    cases h3 : f s e with
    | none => rw [h3] at h1; cases h1
    | some s1 =>
      cases h4 : g t e with
      | none => rw [h4] at h2; cases h2
      | some t1 =>
        rw [h3] at h1
        rw [h4] at h2
        exact ih (h e s t s1 t1 hi h3 h4) h1 h2

theorem obind {α β : Type} {x : Option α} {f : α → Option β} {b : β} (h : (x >>= f) = some b) : ∃ a, x = some a ∧ f a = some b := Option.bind_eq_some_iff.1 h

theorem rowLoop_two {σ : Type} {head tail : Buf Nat} {r : Nat} {f : Nat → σ → Option σ} {I : σ → σ → Prop} (h : ∀ a s t s' t', I s t → f a s = some s' → f a t = some t' → I s' t') {s s' t t' : σ}
    (hi : I s t) (h1 : rowLoop head tail r s f = some s') (h2 : rowLoop head tail r t f = some t') : I s' t' := by
  unfold rowLoop at h1 h2
  obtain ⟨st, g1, h1⟩ := obind h1
  obtain ⟨sa, g2, h1⟩ := obind h1
  obtain ⟨st', g3, h2⟩ := obind h2
  obtain ⟨sa', g4, h2⟩ := obind h2
  rw [g1] at g3
  rw [g2] at g4
  cases g3
  cases g4
  unfold forNe at h1 h2
  by_cases hl : sa ≤ st
  · rw [if_pos hl] at h1 h2
    refine foldlM_two (fun e s t s' t' hi h1 h2 => ?_) _ hi h1 h2
    obtain ⟨a, k1, h1⟩ := obind h1
    obtain ⟨a', k2, h2⟩ := obind h2
    rw [k1] at k2
    cases k2
    exact h a s t s' t' hi h1 h2
  · rw [if_neg hl] at h1; cases h1

theorem scanRow_two {l l' : Nat} {head tail : Buf Nat} {r v : Nat} {s s' t t' : UnionSt} (hi : SameUnion l l' s t) (h1 : scanRow true head tail r v s = some s') (h2 : scanRow true head tail r v t = some t') : SameUnion l l' s' t' := by
  unfold scanRow at h1 h2
  refine rowLoop_two (fun a s t s' t' hi h1 h2 => ?_) hi h1 h2
  dsimp only at h1 h2
  obtain ⟨m, k1, h1⟩ := obind h1
  obtain ⟨m', k2, h2⟩ := obind h2
  rw [hi.rm, k2] at k1
  cases k1
  by_cases hm : m ≠ v
  · rw [if_pos hm] at h1 h2
    obtain ⟨rm, k3, h1⟩ := obind h1
    obtain ⟨rm', k4, h2⟩ := obind h2
    rw [hi.rm, k4] at k3
    cases k3
    obtain ⟨hd, k5, h1⟩ := obind h1
    obtain ⟨hd', k6, h2⟩ := obind h2
    cases h1
    cases h2
    rw [hi.cnt] at k5
    exact ⟨rfl, hi.tail, by show s.cnt + 1 = t.cnt + 1; rw [hi.cnt], set_cells hi.cells k5 k6, (tight_set hi.tight1 k5).1, (tight_set hi.tight2 k6).1, (tight_set hi.tight1 k5).2.trans hi.len1, (tight_set hi.tight2 k6).2.trans hi.len2⟩
  · rw [if_neg hm] at h1 h2
    cases h1
    cases h2
    exact hi

theorem setRm_two {l l' : Nat} {s t : UnionSt} {v : Nat} {rm rm' : Buf Nat} (hi : SameUnion l l' s t) (h1 : s.rm.set v v = some rm) (h2 : t.rm.set v v = some rm') :
    SameUnion l l' { s with rm := rm } { t with rm := rm' } := by
  rw [hi.rm, h2] at h1
  cases h1
  exact ⟨rfl, hi.tail, hi.cnt, hi.cells, hi.tight1, hi.tight2, hi.len1, hi.len2⟩

theorem setTail_two {l l' : Nat} {s t : UnionSt} {v c c' : Nat} {a b : Buf Nat} (hi : SameUnion l l' s t) (hc : c = c') (h1 : s.tail.set v c = some a) (h2 : t.tail.set v c' = some b) :
    SameUnion l l' { s with tail := a } { t with tail := b } := by
  rw [hi.tail, hc, h2] at h1
  cases h1
  exact ⟨hi.rm, rfl, hi.cnt, hi.cells, hi.tight1, hi.tight2, hi.len1, hi.len2⟩

theorem unionRow_two {l l' : Nat} {keep : Bool} {dgs : List (Buf Nat × Buf Nat)} {v : Nat} {s s' t t' : UnionSt} (hi : SameUnion l l' s t) (h1 : unionRow keep true dgs v s = some s')
    (h2 : unionRow keep true dgs v t = some t') : SameUnion l l' s' t' := by
  unfold unionRow at h1 h2
  cases keep with
  | false =>
    obtain ⟨rm, k1, h1⟩ := obind (by simpa using h1)
    obtain ⟨rm', k2, h2⟩ := obind (by simpa using h2)
    refine foldlM_two (I := SameUnion l l') ?_ _ (setRm_two hi k1 k2) h1 h2
    intro e s t s' t' hi h1 h2
    exact scanRow_two hi h1 h2
  | true =>
    simp only [Bool.not_true, Bool.false_eq_true, if_false, pure_bind] at h1 h2
    refine foldlM_two (I := SameUnion l l') ?_ _ hi h1 h2
    intro e s t s' t' hi h1 h2
    exact scanRow_two hi h1 h2

theorem unionKeptRow_two {l l' : Nat} {keep : Bool} {dgs : List (Buf Nat × Buf Nat)} {v : Nat} {s t : UnionSt} {next : List Nat} {s' t' : UnionSt × List Nat} (hi : SameUnion l l' s t)
    (h1 : unionKeptRow keep dgs v s next = some s') (h2 : unionKeptRow keep dgs v t next = some t') : SameUnion l l' s'.1 t'.1 ∧ s'.2 = t'.2 := by
  unfold unionKeptRow at h1 h2
  cases next with
  | nil =>
    cases h1
    cases h2
    exact ⟨hi, rfl⟩
  | cons a rest =>
    dsimp only at h1 h2
    by_cases ha : a = v
    · rw [if_pos ha] at h1 h2
      obtain ⟨s1, k1, h1⟩ := obind h1
      obtain ⟨t1, k2, h2⟩ := obind h2
      cases h1
      cases h2
      exact ⟨unionRow_two hi k1 k2, rfl⟩
    · rw [if_neg ha] at h1 h2
      cases h1
      cases h2
      exact ⟨hi, rfl⟩

theorem doUnion_two {cfg : Cfg} {n : Nat} {dgs : List (Buf Nat × Buf Nat)} {rm : Buf Nat} {tails : Option (List Nat)} {keep : Bool} {tail h h' : Buf Nat} {s t : UnionSt} (hc : h.cell = h'.cell) (ht : h.Tight)
    (ht' : h'.Tight) (h1 : doUnion cfg n dgs rm tails keep true tail h = some s) (h2 : doUnion cfg n dgs rm tails keep true tail h' = some t) : SameUnion h.len h'.len s t := by
  unfold doUnion at h1 h2
  obtain ⟨rm1, k1, h1⟩ := obind h1
  obtain ⟨rm2, k2, h2⟩ := obind h2
  rw [k1] at k2
  cases k2
  have hi : SameUnion h.len h'.len ⟨rm1, h, tail, 0⟩ ⟨rm1, h', tail, 0⟩ := ⟨rfl, rfl, rfl, hc, ht, ht', rfl, rfl⟩
  cases tails with
  | none =>
    dsimp only at h1 h2
    obtain ⟨a, k1, h1⟩ := obind h1
    obtain ⟨b, k2, h2⟩ := obind h2
    refine foldlM_two (fun e s t s' t' hi h1 h2 => ?_) _ (setTail_two hi rfl k1 k2) h1 h2
    obtain ⟨s1, k3, h1⟩ := obind h1
    obtain ⟨t1, k4, h2⟩ := obind h2
    obtain ⟨a, k5, h1⟩ := obind h1
    obtain ⟨b, k6, h2⟩ := obind h2
    cases h1
    cases h2
    have h3 := unionRow_two hi k3 k4
    exact setTail_two h3 h3.cnt k5 k6
  | some ts =>
    dsimp only at h1 h2
    obtain ⟨a, k1, h1⟩ := obind h1
    obtain ⟨b, k2, h2⟩ := obind h2
    obtain ⟨s', k3, h1⟩ := obind h1
    obtain ⟨t', k4, h2⟩ := obind h2
    cases h1
    cases h2
    have h3 : SameUnion h.len h'.len s'.1 t'.1 ∧ s'.2 = t'.2 := by
      refine foldlM_two (I := fun s t => SameUnion h.len h'.len s.1 t.1 ∧ s.2 = t.2) (fun e s t s' t' hi h1 h2 => ?_) _ ⟨setTail_two hi rfl k1 k2, rfl⟩ k3 k4
      obtain ⟨s, ns⟩ := s
      obtain ⟨t, nt⟩ := t
      obtain ⟨hi, hn⟩ := hi
      dsimp only at hi hn
      subst hn
      obtain ⟨s1, k3, h1⟩ := obind h1
      obtain ⟨t1, k4, h2⟩ := obind h2
      obtain ⟨a, k5, h1⟩ := obind h1
      obtain ⟨b, k6, h2⟩ := obind h2
      cases h1
      cases h2
      obtain ⟨h3, h4⟩ := unionKeptRow_two hi k3 k4
      exact ⟨setTail_two h3 h3.cnt k5 k6, h4⟩
    exact h3.1

theorem productRow_two {l l' : Nat} {force : Bool} {ah at_ bh bt : Buf Nat} {v : Nat} {s s' t t' : UnionSt} (hi : SameUnion l l' s t) (h1 : productRow force true ah at_ bh bt v s = some s')
    (h2 : productRow force true ah at_ bh bt v t = some t') : SameUnion l l' s' t' := by
  unfold productRow at h1 h2
  obtain ⟨rm, k1, h1⟩ := obind h1
  obtain ⟨rm', k2, h2⟩ := obind h2
  have hi := setRm_two hi k1 k2
  cases force with
  | false =>
    simp only [Bool.false_eq_true, if_false, pure_bind] at h1 h2
    refine rowLoop_two (I := SameUnion l l') ?_ hi h1 h2
    intro e s t s' t' hi h1 h2
    exact scanRow_two hi h1 h2
  | true =>
    simp only [if_true] at h1 h2
    obtain ⟨s1, k3, h1⟩ := obind h1
    obtain ⟨t1, k4, h2⟩ := obind h2
    refine rowLoop_two (I := SameUnion l l') ?_ (scanRow_two hi k3 k4) h1 h2
    intro e s t s' t' hi h1 h2
    exact scanRow_two hi h1 h2

theorem doProduct_two {cfg : Cfg} {n : Nat} {ah at_ bh bt rm : Buf Nat} {force : Bool} {tail h h' : Buf Nat} {s t : UnionSt} (hc : h.cell = h'.cell) (ht : h.Tight)
    (ht' : h'.Tight) (h1 : doProduct cfg n ah at_ bh bt rm force true tail h = some s) (h2 : doProduct cfg n ah at_ bh bt rm force true tail h' = some t) : SameUnion h.len h'.len s t := by
  unfold doProduct at h1 h2
  obtain ⟨rm1, k1, h1⟩ := obind h1
  obtain ⟨rm2, k2, h2⟩ := obind h2
  rw [k1] at k2
  cases k2
  have hi : SameUnion h.len h'.len ⟨rm1, h, tail, 0⟩ ⟨rm1, h', tail, 0⟩ := ⟨rfl, rfl, rfl, hc, ht, ht', rfl, rfl⟩
  dsimp only at h1 h2
  rw [if_neg (by decide)] at h1 h2
  obtain ⟨a, k1, h1⟩ := obind h1
  obtain ⟨b, k2, h2⟩ := obind h2
  refine foldlM_two (fun e s t s' t' hi h1 h2 => ?_) _ (setTail_two hi rfl k1 k2) h1 h2
  obtain ⟨s1, k3, h1⟩ := obind h1
  obtain ⟨t1, k4, h2⟩ := obind h2
  obtain ⟨a, k5, h1⟩ := obind h1
  obtain ⟨b, k6, h2⟩ := obind h2
  cases h1
  cases h2
  have h3 := productRow_two hi k3 k4
  exact setTail_two h3 h3.cnt k5 k6

/-- New digraphs with arc arrays that are empty but may have different sizes. -/
inductive FreshAlike (n : Nat) : Digraph → Digraph → Prop
  | mk {m m' i j : Nat} {h h' : Option (Blk Nat)} (hh : ptrBuf h = Buf.raw m) (hh' : ptrBuf h' = Buf.raw m') (hz : h.isNone = decide (m = 0)) (hz' : h'.isNone = decide (m' = 0)) :
    FreshAlike n ⟨n, m, h, some ⟨i, Buf.raw (n + 1)⟩⟩ ⟨n, m', h', some ⟨j, Buf.raw (n + 1)⟩⟩

/-- What `initDigraph` gives. -/
inductive FreshOne (n m : Nat) : Digraph → Prop
  | mk {i : Nat} {h : Option (Blk Nat)} (hh : ptrBuf h = Buf.raw m) (hz : h.isNone = decide (m = 0)) : FreshOne n m ⟨n, m, h, some ⟨i, Buf.raw (n + 1)⟩⟩

theorem FreshOne.two {n m m' : Nat} {d e : Digraph} (h1 : FreshOne n m d) (h2 : FreshOne n m' e) : FreshAlike n d e := by
  obtain ⟨a, b⟩ := h1
  obtain ⟨c, d⟩ := h2
  exact .mk a c b d

/-- Running out of memory in `initDigraph`. -/
theorem initDigraph_cases {cfg : Cfg} {n m : Nat} {w : World} {r : Except ErrorCode Digraph × World} (h : initDigraph cfg n m w = some r) :
    r.2.fails = w.fails ∧ ((∃ d, r.1 = .ok d ∧ FreshOne n m d ∧ ¬ (cfg.arcMax < m ∨ cfg.sizeMax < m)) ∨ (r.1 = .error .noMemory ∧ ¬ (cfg.arcMax < m ∨ cfg.sizeMax < m) ∧ ¬ w.NoFail) ∨
      (r.1 = .error .tooLarge ∧ (cfg.arcMax < m ∨ cfg.sizeMax < m))) := by
  unfold initDigraph at h
  by_cases hm : cfg.arcMax < m ∨ cfg.sizeMax < m
  · rw [if_pos hm] at h
    cases h
    exact ⟨rfl, Or.inr (Or.inr ⟨rfl, hm⟩)⟩
  rw [if_neg hm] at h
  obtain ⟨t, w1, h1, h2⟩ := bind_eq.1 h
  have hf := fails_alloc h1
  cases t with
  | none =>
    cases h2
    exact ⟨hf, Or.inr (Or.inl ⟨rfl, hm, fun hn => by cases alloc_noFail hn h1⟩)⟩
  | some t =>
    have ht : t.buf = Buf.raw (n + 1) := by
      unfold alloc at h1
      by_cases hf : w.fails w.clock true = true
      · rw [if_pos hf] at h1; cases h1
      · rw [if_neg hf] at h1; cases h1; rfl
    obtain ⟨i, tb⟩ := t
    dsimp only at ht h2
    subst ht
    by_cases hz : 0 < m
    · rw [if_pos hz] at h2
      obtain ⟨hd, w2, h3, h4⟩ := bind_eq.1 h2
      have hf' := fails_alloc h3
      cases hd with
      | none =>
        have hn : ¬ w.NoFail := fun hn => by
          have : w1.NoFail := fun i c => by rw [hf]; exact hn i c
          cases alloc_noFail this h3
        dsimp only at h4
        obtain ⟨d, w3, h5, h6⟩ := bind_eq.1 h4
        cases h6
        refine ⟨?_, Or.inr (Or.inl ⟨rfl, hm, hn⟩)⟩
        unfold freeDigraph at h5
        obtain ⟨u, w4, h7, h8⟩ := bind_eq.1 h5
        obtain ⟨u', w5, h9, h10⟩ := bind_eq.1 h8
        cases h10
        cases h7
        unfold freePtr freeId at h9
        by_cases hi : i ∈ w2.live
        · dsimp only at h9
          rw [if_pos hi] at h9
          cases h9
          show w2.fails = w.fails
          rw [hf', hf]
        · dsimp only at h9
          rw [if_neg hi] at h9; cases h9
      | some hd =>
        have ht : hd.buf = Buf.raw m := by
          unfold alloc at h3
          by_cases hf : w1.fails w1.clock true = true
          · rw [if_pos hf] at h3; cases h3
          · rw [if_neg hf] at h3; cases h3; rfl
        cases h4
        refine ⟨hf'.trans hf, Or.inl ⟨_, rfl, .mk ht ?_, hm⟩⟩
        show false = decide (m = 0)
        exact (decide_eq_false (by omega)).symm
    · rw [if_neg hz] at h2
      cases h2
      have hm0 : m = 0 := by omega
      subst hm0
      exact ⟨hf, Or.inl ⟨_, rfl, .mk rfl rfl, hm⟩⟩

theorem pair_allocOutput (cfg : Cfg) (n greedy : Nat) {r r' : Nat} {ids ids' : List Nat} (count : Option UnionSt) :
    Pair BadExc (ExcAlike (FreshAlike n)) (allocOutput cfg n greedy r ids count) (allocOutput cfg n greedy r' ids' count) := by
  intro w v a b hw hv h1 h2
  unfold allocOutput at h1 h2
  obtain ⟨d, w1, h3, h4⟩ := bind_eq.1 h1
  obtain ⟨e, v1, h5, h6⟩ := bind_eq.1 h2
  obtain ⟨f1, c1⟩ := initDigraph_cases h3
  obtain ⟨f2, c2⟩ := initDigraph_cases h5
  have hw1 : w1.UncheckedOk := fun i => by rw [f1]; exact hw i
  have hv1 : v1.NoFail := fun i c => by rw [f2]; exact hv i c
  dsimp only at c1 c2
  rcases c2 with ⟨e, rfl, g2, n2⟩ | ⟨-, -, g⟩ | ⟨rfl, n2⟩
  · cases h6
    rcases c1 with ⟨d, rfl, g1, -⟩ | ⟨rfl, -, -⟩ | ⟨-, n1⟩
    · cases h4
      exact Or.inr ⟨.ok (g1.two g2), hw1, hv1⟩
    · obtain ⟨u, w2, k1, k2⟩ := bind_eq.1 h4
      cases k1
      obtain ⟨st, w3, k3, k4⟩ := bind_eq.1 k2
      have f3 : w3.fails = w1.fails := by
        unfold useK at k3
        by_cases hl : ∀ i ∈ r :: ids, i ∈ w1.live
        · rw [if_pos hl] at k3
          cases count with
          | none => cases k3
          | some c => cases k3; rfl
        · rw [if_neg hl] at k3; cases k3
      obtain ⟨f4, c4⟩ := initDigraph_cases k4
      rcases c4 with ⟨d, h, g1, -⟩ | ⟨h, -, -⟩ | ⟨h, -⟩
      · right
        refine ⟨h ▸ .ok (g1.two g2), fun i => ?_, hv1⟩
        rw [f4, f3]
        exact hw1 i
      · exact Or.inl ⟨_, h, badMemory⟩
      · exact Or.inl ⟨_, h, badLarge⟩
    · exact absurd n1 n2
  · exact absurd hv g
  · rcases c1 with ⟨d, -, -, n1⟩ | ⟨-, n1, -⟩ | ⟨rfl, -⟩
    · exact absurd n2 n1
    · exact absurd n2 n1
    · have key : Pair BadExc (ExcAlike (FreshAlike n)) (do resetErr; let st ← useK (r :: ids) count; initDigraph cfg n st.cnt) (do resetErr; let st ← useK (r' :: ids') count; initDigraph cfg n st.cnt) := by
        refine pair_bind pair_resetErr fun _ _ _ => pair_bind (pair_useK rfl) fun a b hab => ?_
        subst hab
        intro w v r s hw hv h1 h2
        obtain ⟨f1, c1⟩ := initDigraph_cases h1
        obtain ⟨f2, c2⟩ := initDigraph_cases h2
        rcases c1 with ⟨d, h, g1, n1⟩ | ⟨h, -, -⟩ | ⟨h, -⟩
        · rcases c2 with ⟨e, h', g2, -⟩ | ⟨-, -, g⟩ | ⟨-, n2⟩
          · exact Or.inr ⟨h ▸ h' ▸ .ok (g1.two g2), fun i => by rw [f1]; exact hw i, fun i c => by rw [f2]; exact hv i c⟩
          · exact absurd hv g
          · exact absurd n2 n1
        · exact Or.inl ⟨_, h, badMemory⟩
        · exact Or.inl ⟨_, h, badLarge⟩
      exact key w1 v1 a b hw1 hv1 h4 h6

/-- An arc array of size `m` with the contents `c`. -/
inductive HeadOne (m : Nat) (c : Nat → Option Nat) : Option (Blk Nat) → Prop
  | null (hm : m = 0) (hc : c = fun _ => none) : HeadOne m c none
  | ptr {i : Nat} {b : Buf Nat} (hm : 0 < m) (hl : b.len = m) (ht : b.Tight) (hc : b.cell = c) : HeadOne m c (some ⟨i, b⟩)

/-- What `changeArcStorage` does to the arc array. -/
inductive ArcStored (m : Nat) (c : Nat → Option Nat) : Option (Blk Nat) → Prop
  | null (hm : m = 0) : ArcStored m c none
  | ptr {i : Nat} (hm : 0 < m) : ArcStored m c (some ⟨i, ⟨m, c⟩⟩)

theorem ArcStored.two {m : Nat} {c : Nat → Option Nat} {h h' : Option (Blk Nat)} (h1 : ArcStored m c h) (h2 : ArcStored m c h') : PtrEq h h' := by
  cases h1 with
  | null hm =>
    cases h2 with
    | null => exact .null
    | ptr hm' => omega
  | ptr hm =>
    cases h2 with
    | null => omega
    | ptr => exact .ptr nm

theorem changeArcStorage_cases {cfg : Cfg} {n m k : Nat} {c : Nat → Option Nat} {h t : Option (Blk Nat)} {w : World} {r : (ErrorCode × Digraph) × World} (hh : HeadOne m c h)
    (hr : changeArcStorage cfg ⟨n, m, h, t⟩ k w = some r) :
    r.2.fails = w.fails ∧ ((∃ h', r.1 = (.ok, ⟨n, k, h', t⟩) ∧ ArcStored k c h' ∧ ¬ (cfg.arcMax < k ∨ cfg.sizeMax < k)) ∨ (r.1.1 = .noMemory ∧ ¬ w.NoFail) ∨ (r.1.1 = .tooLarge ∧ (cfg.arcMax < k ∨ cfg.sizeMax < k))) := by
  unfold changeArcStorage at hr
  by_cases hk : cfg.arcMax < k ∨ cfg.sizeMax < k
  · rw [if_pos hk] at hr
    cases hr
    exact ⟨rfl, Or.inr (Or.inr ⟨rfl, hk⟩)⟩
  rw [if_neg hk] at hr
  dsimp only at hr
  by_cases he : m = k
  · rw [if_pos he] at hr
    cases hr
    subst he
    refine ⟨rfl, Or.inl ⟨_, rfl, ?_, hk⟩⟩
    cases hh with
    | null hm hc => exact .null hm
    | @ptr i b hm hl ht hc =>
      obtain ⟨l, b⟩ := b
      dsimp only at hl hc
      subst hl hc
      exact .ptr hm
  rw [if_neg he] at hr
  by_cases hz : k = 0
  · rw [if_pos hz] at hr
    obtain ⟨u, w1, h1, h2⟩ := bind_eq.1 hr
    cases h2
    subst hz
    refine ⟨?_, Or.inl ⟨_, rfl, .null rfl, hk⟩⟩
    cases hh with
    | null => cases h1; rfl
    | @ptr i b =>
      unfold freePtr freeId at h1
      by_cases hi : i ∈ w.live
      · dsimp only at h1
        rw [if_pos hi] at h1
        cases h1
        rfl
      · dsimp only at h1
        rw [if_neg hi] at h1; cases h1
  rw [if_neg hz] at hr
  obtain ⟨p, w1, h1, h2⟩ := bind_eq.1 hr
  have key : w1.fails = w.fails ∧ ((p = none ∧ ¬ w.NoFail) ∨ ∃ i, p = some ⟨i, ⟨k, c⟩⟩) := by
    cases hh with
    | null hm hc =>
      unfold reallocHead alloc at h1
      dsimp only at h1
      by_cases hf : w.fails w.clock true = true
      · rw [if_pos hf] at h1
        cases h1
        exact ⟨rfl, Or.inl ⟨rfl, fun hn => by rw [hn] at hf; cases hf⟩⟩
      · rw [if_neg hf] at h1
        cases h1
        subst hc
        exact ⟨rfl, Or.inr ⟨_, rfl⟩⟩
    | @ptr i b hm hl ht hc =>
      unfold reallocHead reallocBlk at h1
      dsimp only at h1
      by_cases hi : i ∈ w.live ∧ 0 < k
      · rw [if_pos hi] at h1
        by_cases hf : w.fails w.clock true = true
        · rw [if_pos hf] at h1
          cases h1
          exact ⟨rfl, Or.inl ⟨rfl, fun hn => by rw [hn] at hf; cases hf⟩⟩
        · rw [if_neg hf] at h1
          cases h1
          refine ⟨rfl, Or.inr ⟨w.fresh, ?_⟩⟩
          have : b.resize k = ⟨k, c⟩ := by
            rw [← hc, ← tight_resize ht k]
            rfl
          rw [this]
      · rw [if_neg hi] at h1; cases h1
  obtain ⟨hf, ⟨rfl, hn⟩ | ⟨i, rfl⟩⟩ := key
  · cases h2
    exact ⟨hf, Or.inr (Or.inl ⟨rfl, hn⟩)⟩
  · cases h2
    exact ⟨hf, Or.inl ⟨_, rfl, .ptr (by omega), hk⟩⟩

theorem pair_changeFresh {cfg : Cfg} {n m m' k : Nat} {c : Nat → Option Nat} {h h' t t' : Option (Blk Nat)} (hh : HeadOne m c h) (hh' : HeadOne m' c h') (ht : PtrEq t t') :
    Pair BadPair (fun a b => (a.1 = .ok ∧ b.1 = .ok) ∧ DgEq a.2 b.2) (changeArcStorage cfg ⟨n, m, h, t⟩ k) (changeArcStorage cfg ⟨n, m', h', t'⟩ k) := by
  intro w v r s hw hv h1 h2
  obtain ⟨f1, c1⟩ := changeArcStorage_cases hh h1
  obtain ⟨f2, c2⟩ := changeArcStorage_cases hh' h2
  rcases c1 with ⟨p, e1, s1, n1⟩ | ⟨e1, -⟩ | ⟨e1, -⟩
  · rcases c2 with ⟨q, e2, s2, -⟩ | ⟨-, g⟩ | ⟨-, n2⟩
    · refine Or.inr ⟨?_, fun i => by rw [f1]; exact hw i, fun i c => by rw [f2]; exact hv i c⟩
      rw [e1, e2]
      exact ⟨⟨rfl, rfl⟩, .mk (s1.two s2) ht⟩
    · exact absurd hv g
    · exact absurd n2 n1
  · exact Or.inl (by unfold BadPair; rw [e1]; exact badMemory)
  · exact Or.inl (by unfold BadPair; rw [e1]; exact badLarge)

theorem headOne_set {m : Nat} {h : Option (Blk Nat)} {b : Buf Nat} {c : Nat → Option Nat} (hh : ptrBuf h = Buf.raw m) (hz : h.isNone = decide (m = 0)) (hl : b.len = (ptrBuf h).len) (ht : b.Tight) (hc : b.cell = c) :
    HeadOne m c (ptrSet h b) := by
  rw [hh] at hl
  cases h with
  | none =>
    have hm : m = 0 := of_decide_eq_true hz.symm
    refine .null hm ?_
    rw [← hc]
    funext i
    refine ht i ?_
    rw [hl]
    show m ≤ i
    omega
  | some x => exact .ptr (Nat.pos_of_ne_zero (of_decide_eq_false hz.symm)) hl ht hc

theorem pair_buildDigraph (cfg : Cfg) (n greedy : Nat) {r r' : Nat} {ids ids' : List Nat} (count : Option UnionSt) {write : Buf Nat → Buf Nat → Option UnionSt}
    (hw : ∀ tl h h' s t, h.cell = h'.cell → h.Tight → h'.Tight → write tl h = some s → write tl h' = some t → SameUnion h.len h'.len s t) :
    Pair BadExc (ExcAlike DgEq) (buildDigraph cfg n greedy r ids count write) (buildDigraph cfg n greedy r' ids' count write) := by
  unfold buildDigraph
  refine pair_try (pair_allocOutput _ _ _ _) (fun a ha => ?_) fun a b h => ?_
  · obtain ⟨e, rfl, he⟩ := ha
    exact ends_next fun _ => ends_pure ⟨_, rfl, he⟩
  cases h with
  | error => exact pair_bind pair_freeId fun _ _ _ => pair_pure .error
  | ok h =>
    cases h with
    | @mk m m' i j h h' hh hh' hz hz' =>
      refine pair_bind (pair_useKR (R := SameUnion (ptrBuf h).len (ptrBuf h').len) fun s t h1 h2 => ?_) fun s t hst => ?_
      · refine hw _ _ _ _ _ ?_ ?_ ?_ h1 h2
        · show (ptrBuf h).cell = (ptrBuf h').cell
          rw [hh, hh']; rfl
        · show (ptrBuf h).Tight
          rw [hh]; exact tight_raw _
        · show (ptrBuf h').Tight
          rw [hh']; exact tight_raw _
      refine pair_bind pair_freeId fun _ _ _ => ?_
      have h1 := headOne_set hh hz hst.len1 hst.tight1 hst.cells
      have h2 := headOne_set (c := t.head.cell) hh' hz' hst.len2 hst.tight2 rfl
      dsimp only
      rw [hst.cnt]
      refine pair_try (pair_changeFresh h1 h2 (by rw [hst.tail]; exact .ptr nm)) (fun a ha => ?_) fun a b hab => ?_
      · obtain ⟨e, d⟩ := a
        change BadCode e at ha
        dsimp only
        rw [if_pos (by intro h; subst h; exact absurd ha (by unfold BadCode; simp))]
        exact ends_next fun _ => ends_pure ⟨_, rfl, ha⟩
      · obtain ⟨e, d⟩ := a
        obtain ⟨e', d'⟩ := b
        obtain ⟨⟨he, he'⟩, hd⟩ := hab
        dsimp only at he he' hd ⊢
        subst he he'
        exact pair_ite Iff.rfl (fun h => absurd rfl h) fun _ => pair_pure (.ok hd)

theorem pair_unionAndDelete (cfg : Cfg) {ds es : List Digraph} (tails : Option (List Nat)) (keep : Bool) (h : List.Forall₂ DgEq ds es) :
    Pair BadExc (ExcAlike DgEq) (unionAndDelete cfg ds tails keep) (unionAndDelete cfg es tails keep) := by
  have hb : (ds.map fun d => (ptrBuf d.head, ptrBuf d.tail)) = es.map fun d => (ptrBuf d.head, ptrBuf d.tail) := by
    induction h with
    | nil => rfl
    | cons h _ ih => rw [List.map_cons, List.map_cons, ih, h.hbuf, h.tbuf]
  have hn : ds.head?.map Digraph.n = es.head?.map Digraph.n := by
    cases h with
    | nil => rfl
    | cons h _ => exact congrArg some h.n
  unfold unionAndDelete
  dsimp only
  rw [hb]
  refine pair_bind (pair_useK hn) fun a b hab => ?_
  subst hab
  refine pair_bind (pair_useK rfl) fun a b hab => ?_
  subst hab
  refine pair_new pair_alloc (ends_badFail badMemory) fun a b hab => ?_
  cases hab with
  | null => exact pair_fail
  | ptr h => exact pair_buildDigraph cfg _ _ _ fun tl h h' s t hc ht ht' h1 h2 => doUnion_two hc ht ht' h1 h2

theorem pair_digraphDifference (cfg : Cfg) {m m' s s' : Digraph} (k : Nat) (hm : DgEq m m') (hs : DgEq s s') :
    Pair BadPair (PairAlike Eq DgEq) (digraphDifference cfg m s k) (digraphDifference cfg m' s' k) := by
  unfold digraphDifference
  refine pair_bind (pair_isEmpty hm) fun a b hab => ?_
  subst hab
  refine pair_ite Iff.rfl (fun _ => pair_pure ⟨rfl, hm⟩) fun _ => ?_
  refine pair_new (by rw [hm.n]; exact pair_alloc) (ends_badErr badMemory) fun a b hab => ?_
  cases hab with
  | null => exact pair_bind pair_mkErr fun _ _ he => pair_pure ⟨he, hm⟩
  | ptr h =>
    refine pair_bind (pair_useK (by rw [hm.n, hm.hbuf, hm.tbuf, hs.hbuf, hs.tbuf])) fun a b hab => ?_
    subst hab
    exact pair_bind pair_freeId fun _ _ _ => pair_changeArcStorage cfg _ (hm.set _ _)

theorem pair_digraphTranspose (cfg : Cfg) {d e : Digraph} (h : DgEq d e) : Pair BadExc (ExcAlike DgEq) (digraphTranspose cfg d) (digraphTranspose cfg e) := by
  unfold digraphTranspose
  rw [h.n]
  refine pair_bind (pair_useK (by rw [h.tbuf])) fun a b hab => ?_
  subst hab
  refine pair_try (pair_emptyDigraph _ _ _) (fun a ha => ?_) fun a b hab => ?_
  · obtain ⟨e, rfl, he⟩ := ha
    exact ends_pure ⟨_, rfl, he⟩
  cases hab with
  | error => exact pair_pure .error
  | ok ho =>
    refine pair_bind (pair_isEmpty h) fun a b hab => ?_
    subst hab
    refine pair_ite Iff.rfl (fun _ => pair_pure (.ok ho)) fun _ => ?_
    refine pair_bind (pair_useK (by rw [h.hbuf, h.tbuf, ho.hbuf, ho.tbuf])) fun a b hab => ?_
    subst hab
    exact pair_pure (.ok (ho.set _ _))

theorem pair_adjacencyProduct (cfg : Cfg) {a a' b b' : Digraph} (f : Bool) (ha : DgEq a a') (hb : DgEq b b') :
    Pair BadExc (ExcAlike DgEq) (adjacencyProduct cfg a b f) (adjacencyProduct cfg a' b' f) := by
  unfold adjacencyProduct
  dsimp only
  rw [ha.n, ha.hbuf, ha.tbuf, hb.hbuf, hb.tbuf]
  refine pair_new pair_alloc (ends_badFail badMemory) fun x y hab => ?_
  cases hab with
  | null => exact pair_fail
  | ptr h =>
    refine pair_bind (pair_useK rfl) fun a b hab => ?_
    subst hab
    exact pair_buildDigraph cfg _ _ _ fun tl h h' s t hc ht ht' h1 h2 => doProduct_two hc ht ht' h1 h2

end Scc
