/-
The same call in two processes, one of which runs out of memory: the search for seeds.
-/
import Verif.Proofs.Press
import Verif.Proofs.RepeatSeeds

namespace Scc

variable {α β γ δ : Type}

/-! ### More rules -/

/-- Blocks with the same contents. -/
inductive Both (b : Buf α) : Option (Blk α) → Option (Blk α) → Prop
  | mk {i j : Nat} : Both b (some ⟨i, b⟩) (some ⟨j, b⟩)

theorem pair_get {init : Buf α} : Pair Lost (Both init) (alloc init) (alloc init) := by
  intro w v r s hw hv h1 h2
  cases alloc_noFail hv h2
  unfold alloc at h1
  by_cases hf : w.fails w.clock true = true
  · rw [if_pos hf] at h1; cases h1; exact Or.inl rfl
  · rw [if_neg hf] at h1; cases h1; exact Or.inr ⟨.mk, hw, hv⟩

/-- Requests whose result is not checked. -/
theorem pair_getU {init : Buf α} : Pair never (Both init) (alloc init false) (alloc init false) :=
  pair_mono pair_allocU (fun _ => id) (by rintro a b ⟨i, j, rfl, rfl⟩; exact .mk)

theorem pair_reallocS {i j n : Nat} {b : Buf Nat} :
    Pair never (fun p q => (p = none ∨ ∃ i, p = some ⟨i, b.resize n⟩) ∧ ∃ j, q = some ⟨j, b.resize n⟩) (reallocHead (some ⟨i, b⟩) n) (reallocHead (some ⟨j, b⟩) n) := pair_reallocN (b := ⟨i, b⟩) (c := ⟨j, b⟩)

theorem ends_code {e : ErrorCode} (h : BadCode e) {B : α → Prop} {x y : M α} (hx : Ends x B) : Ends (if e ≠ .ok then x else y) B := by
  rw [if_pos h.ne]
  exact hx

theorem badExc_error {e : ErrorCode} (h : BadCode e) : BadExc (.error e : Except ErrorCode α) := ⟨_, rfl, h⟩

/-- Steps that may fail. -/
theorem pair_exc {R : γ → δ → Prop} {B : α → Prop} {Q : α → β → Prop} {x : M (Except ErrorCode γ)} {y : M (Except ErrorCode δ)} {f : Except ErrorCode γ → M α} {g : Except ErrorCode δ → M β}
    (hx : Pair BadExc (ExcAlike R) x y) (hb : ∀ e, BadCode e → Ends (f (.error e)) B) (he : ∀ e, Pair B Q (f (.error e)) (g (.error e))) (hf : ∀ a b, R a b → Pair B Q (f (.ok a)) (g (.ok b))) :
    Pair B Q (x >>= f) (y >>= g) := by
  refine pair_try hx (fun a ha => ?_) fun a b hab => ?_
  · obtain ⟨e, rfl, he⟩ := ha
    exact hb e he
  · cases hab with
    | error => exact he _
    | ok h => exact hf _ _ h

/-- Steps that hand back an error code. -/
theorem pair_code {R : γ → δ → Prop} {B : α → Prop} {Q : α → β → Prop} {x : M (ErrorCode × γ)} {y : M (ErrorCode × δ)} {f : ErrorCode × γ → M α} {g : ErrorCode × δ → M β}
    (hx : Pair BadPair (PairAlike Eq R) x y) (hb : ∀ e a, BadCode e → Ends (f (e, a)) B) (hf : ∀ e a b, R a b → Pair B Q (f (e, a)) (g (e, b))) : Pair B Q (x >>= f) (y >>= g) := by
  refine pair_try hx (fun a ha => ?_) fun a b hab => ?_
  · obtain ⟨e, a⟩ := a
    exact hb e a ha
  · obtain ⟨e, a⟩ := a
    obtain ⟨e', b⟩ := b
    obtain ⟨he, h⟩ := hab
    dsimp only at he h
    subst he
    exact hf _ _ _ h

/-- Loops over the members of a list. -/
theorem pair_foldMem {ε : Type} {B : Ctl α γ → Prop} (hB : ∀ a, ¬ B (.next a)) {Q : α → β → Prop} {R : γ → δ → Prop} {f : α → ε → M (Ctl α γ)} {g : β → ε → M (Ctl β δ)} (l : List ε)
    (h : ∀ a b e, e ∈ l → Q a b → Pair B (CtlAlike Q R) (f a e) (g b e)) {a : α} {b : β} (hab : Q a b) : Pair B (CtlAlike Q R) (foldBM f a l) (foldBM g b l) := by
  induction l generalizing a b with
  | nil => exact pair_pure (.next hab)
  | cons e l ih =>
    unfold foldBM
    refine pair_try (h a b e List.mem_cons_self hab) (fun c hc => ?_) fun c d hcd => ?_
    · cases c with
      | next c => exact (hB c hc).elim
      | stop c => exact ends_pure hc
    · cases hcd with
      | next h' => exact ih (fun a b e he => h a b e (List.mem_cons_of_mem _ he)) h'
      | stop h => exact pair_pure (.stop h)

theorem badCtl_next {a : α} : ¬ BadCtl (.next a : Ctl α (ErrorCode × β)) := by rintro ⟨_, _, h, _⟩; cases h
theorem badCtl_stop {e : ErrorCode} {b : β} (h : BadCode e) : BadCtl (.stop (e, b) : Ctl α (ErrorCode × β)) := ⟨_, _, rfl, h⟩

/-- Loops that may be left with an error. -/
theorem pair_loop {ε : Type} {Q : α → α → Prop} {R : γ → γ → Prop} {B : δ → Prop} {P : δ → δ → Prop} {f g : α → ε → M (Ctl α (ErrorCode × γ))} {l : List ε} {a b : α}
    {k k' : Ctl α (ErrorCode × γ) → M δ} (h : ∀ a b e, e ∈ l → Q a b → Pair BadCtl (CtlAlike Q (PairAlike Eq R)) (f a e) (g b e)) (hab : Q a b)
    (hb : ∀ e c, BadCode e → Ends (k (.stop (e, c))) B) (hs : ∀ e c d, R c d → Pair B P (k (.stop (e, c))) (k' (.stop (e, d)))) (hn : ∀ a b, Q a b → Pair B P (k (.next a)) (k' (.next b))) :
    Pair B P (foldBM f a l >>= k) (foldBM g b l >>= k') := by
  refine pair_try (pair_foldMem (fun _ => badCtl_next) l h hab) (fun c hc => ?_) fun c d hcd => ?_
  · obtain ⟨e, c, rfl, he⟩ := hc
    exact hb e c he
  · cases hcd with
    | next h => exact hn _ _ h
    | @stop c d h =>
      obtain ⟨e, c⟩ := c
      obtain ⟨e', d⟩ := d
      obtain ⟨he, h⟩ := h
      dsimp only at he h
      subst he
      exact hs _ _ _ h

/-! ### Adding seeds -/

/-- Lists of seeds with the same contents. -/
inductive SeedEq : SeedResult → SeedResult → Prop
  | mk {c k i j : Nat} {b : Buf Nat} (h : k = 0 → b.get 0 = none) : SeedEq ⟨c, k, some ⟨i, b⟩⟩ ⟨c, k, some ⟨j, b⟩⟩

theorem SeedEq.seeds {s t : SeedResult} (h : SeedEq s t) : PtrEq s.seeds t.seeds := by cases h; exact .ptr nm
theorem SeedEq.count {s t : SeedResult} (h : SeedEq s t) : s.count = t.count := by cases h; rfl

theorem Buf.get_resize_none {b : Buf Nat} {n i : Nat} (h : b.get i = none) : (b.resize n).get i = none := by
  show (if i < n then b.get i else none) = none
  rw [h, ite_self]

theorem Buf.get_raw_none {n i : Nat} : (Buf.raw n : Buf Nat).get i = none := by
  show (if i < n then none else none) = none
  rw [ite_self]

theorem pair_growSeeds (cfg : Cfg) {s t : SeedResult} (h : SeedEq s t) : Pair BadPair (PairAlike Eq SeedEq) (growSeeds cfg s) (growSeeds cfg t) := by
  cases h with
  | mk h =>
    unfold growSeeds
    refine pair_ite Iff.rfl (fun _ => pair_bind pair_reallocS fun a b hab => ?_) fun _ => pair_pure ⟨rfl, .mk h⟩
    obtain ⟨rfl | ⟨i, rfl⟩, j, rfl⟩ := hab
    · exact pair_bad (ends_badErr badMemory)
    · exact pair_pure ⟨rfl, .mk fun hk => Buf.get_resize_none (h hk)⟩

theorem pair_addSeed (cfg : Cfg) (v : Nat) {s t : SeedResult} (h : SeedEq s t) : Pair BadPair (PairAlike Eq SeedEq) (addSeed cfg v s) (addSeed cfg v t) := by
  unfold addSeed
  refine pair_ite (by rw [h.count]) (fun _ => pair_bind pair_mkErr fun _ _ he => pair_pure ⟨he, h⟩) fun _ => pair_code (pair_growSeeds cfg h) (fun e a he => ?_) fun e a b h => ?_
  · dsimp only
    rw [if_pos he.ne]
    exact ends_pure he
  · refine pair_ite Iff.rfl (fun _ => pair_pure ⟨rfl, h⟩) fun _ => ?_
    cases h with
    | mk =>
      refine pair_bind (pair_useK rfl) fun a b hab => ?_
      subst hab
      exact pair_pure ⟨rfl, .mk fun hk => absurd hk (Nat.succ_ne_zero _)⟩

theorem pair_lexicalStep (cfg : Cfg) {d e : Digraph} {m m' : Nat} (hd : DgEq d e) (a b : Buf Bool × SeedResult) (v : Nat) (h : PairAlike Eq SeedEq a b) :
    Pair BadCtl (CtlAlike (PairAlike Eq SeedEq) (PairAlike Eq SeedEq)) (lexicalStep cfg d m a v) (lexicalStep cfg e m' b v) := by
  obtain ⟨ma, s⟩ := a
  obtain ⟨mb, t⟩ := b
  obtain ⟨he, h⟩ := h
  dsimp only at he h
  subst he
  unfold lexicalStep
  dsimp only
  rw [hd.hbuf, hd.tbuf]
  refine pair_bind (pair_useK rfl) fun a b hab => ?_
  subst hab
  refine pair_ite Iff.rfl (fun _ => pair_code (pair_addSeed cfg v h) (fun e a he => ends_code he (ends_pure (badCtl_stop he))) fun e a b h => pair_ite Iff.rfl (fun _ => pair_pure (.stop ⟨rfl, h⟩)) fun _ => ?_) fun _ => pair_pure (.next ⟨rfl, h⟩)
  refine pair_bind (pair_useK rfl) fun a b hab => ?_
  subst hab
  exact pair_pure (.next ⟨rfl, h⟩)

theorem pair_findSeedsLexical (cfg : Cfg) {d e : Digraph} (cap : Nat) (hd : DgEq d e) : Pair BadExc (ExcAlike SeedEq) (findSeedsLexical cfg d cap) (findSeedsLexical cfg e cap) := by
  unfold findSeedsLexical
  rw [hd.n]
  refine pair_new pair_get (ends_next fun a => ?_) fun a b hm => pair_new pair_get ?_ fun a b hs => ?_
  · exact ends_next fun _ => ends_next fun _ => ends_badFail badMemory
  · cases hm
    exact ends_next fun _ => ends_next fun _ => ends_badFail badMemory
  cases hm
  cases hs
  refine pair_loop (fun a b v _ => pair_lexicalStep cfg hd a b v) ⟨rfl, .mk fun _ => Buf.get_raw_none⟩ (fun e c he => ?_) (fun e c d h => ?_) fun a b h => ?_
  · exact ends_next fun _ => ends_next fun _ => ends_badExc he
  · exact pair_bind pair_freeId fun _ _ _ => pair_bind (pair_freePtr h.seeds) fun _ _ _ => pair_pure .error
  · exact pair_bind pair_freeId fun _ _ _ => pair_pure (.ok h.2)

/-! ### Sorting by inwards arcs -/

/-- Sorted vertices with the same contents. -/
abbrev SortEq : SortResult → SortResult → Prop := SortAlike anyT

theorem pair_freeSort {s t : SortResult} (h : SortEq s t) : Pair never Eq (freeSort s) (freeSort t) := by
  cases h with
  | mk ha hb hc hd =>
    exact pair_bind (pair_freePtr ha) fun _ _ _ => pair_bind (pair_freePtr hb) fun _ _ _ => pair_bind (pair_freePtr hc) fun _ _ _ => pair_freePtr hd

theorem pair_finishSort (n : Nat) (ix : Bool) {i i' j j' k k' : Nat} {c s b : Buf Nat} :
    Pair BadExc (ExcAlike SortEq) (finishSort n ix ⟨i, c⟩ ⟨j, s⟩ ⟨k, b⟩) (finishSort n ix ⟨i', c⟩ ⟨j', s⟩ ⟨k', b⟩) := by
  unfold finishSort
  refine pair_ite Iff.rfl (fun _ => pair_new pair_get ?_ fun a b hab => ?_) fun _ => ?_
  · exact ends_next fun _ => ends_badFail badMemory
  · cases hab
    refine pair_bind (pair_useK rfl) fun a b hab => ?_
    subst hab
    exact pair_pure (.ok (.mk (.ptr nm) (.ptr nm) (.ptr nm) (.ptr nm)))
  · refine pair_bind (pair_useK rfl) fun a b hab => ?_
    subst hab
    exact pair_bind pair_freeId fun _ _ _ => pair_bind pair_freeId fun _ _ _ => pair_pure (.ok (.mk .null (.ptr nm) .null .null))

theorem pair_sortByInwards {d e : Digraph} (ix : Bool) (hd : DgEq d e) : Pair BadExc (ExcAlike SortEq) (sortByInwards d ix) (sortByInwards e ix) := by
  unfold sortByInwards
  rw [hd.n, hd.hbuf, hd.tbuf]
  refine pair_new pair_get (ends_next fun a => ?_) fun a b hm => pair_new pair_get ?_ fun a b hs => ?_
  · exact ends_next fun _ => ends_badFail badMemory
  · cases hm
    exact ends_next fun _ => ends_badFail badMemory
  cases hm
  cases hs
  dsimp only
  refine pair_bind (pair_useK rfl) fun a b hab => ?_
  subst hab
  refine pair_bind (pair_useK rfl) fun a b hab => ?_
  subst hab
  refine pair_new pair_get (ends_next fun a => ?_) fun a b hm => pair_new pair_get ?_ fun a b hs => ?_
  · exact ends_next fun _ => ends_next fun _ => ends_badFail badMemory
  · cases hm
    exact ends_next fun _ => ends_next fun _ => ends_badFail badMemory
  cases hm
  cases hs
  dsimp only
  refine pair_bind (pair_useK rfl) fun a b hab => ?_
  subst hab
  exact pair_bind pair_freeId fun _ _ _ => pair_finishSort _ _

/-! ### Inwards -/

/-- States of the search in an order. -/
abbrev InEq : Buf Bool × SeedResult × Queue → Buf Bool × SeedResult × Queue → Prop := PairAlike Eq (PairAlike SeedEq Eq)

theorem pair_inwardsStep (cfg : Cfg) {d e : Digraph} {l l' : List Nat} (up : Bool) (hd : DgEq d e) (a b : Buf Bool × SeedResult × Queue) (p : Nat)
    (h : InEq a b) : Pair BadCtl (CtlAlike InEq (PairAlike Eq SeedEq)) (inwardsStep cfg d l up a p) (inwardsStep cfg e l' up b p) := by
  obtain ⟨ma, s, q⟩ := a
  obtain ⟨mb, t, q'⟩ := b
  obtain ⟨he, h, hq⟩ := h
  dsimp only at he h hq
  subst he
  subst hq
  unfold inwardsStep
  dsimp only
  rw [hd.hbuf, hd.tbuf]
  refine pair_bind (pair_useK rfl) fun a b hab => ?_
  subst hab
  refine pair_bind (pair_useK rfl) fun a b hab => ?_
  subst hab
  refine pair_ite Iff.rfl (fun _ => pair_code (pair_addSeed cfg _ h) (fun e a he => ends_code he (ends_pure (badCtl_stop he))) fun e a b h => pair_ite Iff.rfl (fun _ => pair_pure (.stop ⟨rfl, h⟩)) fun _ => ?_) fun _ => ?_
  · refine pair_bind (pair_useK rfl) fun a b hab => ?_
    subst hab
    refine pair_ite Iff.rfl (fun _ => pair_bind (pair_useK rfl) fun a b hab => ?_) fun _ => pair_pure (.next ⟨rfl, h, rfl⟩)
    subst hab
    exact pair_pure (.next ⟨rfl, h, rfl⟩)
  · refine pair_ite Iff.rfl (fun _ => pair_bind (pair_useK rfl) fun a b hab => ?_) fun _ => pair_pure (.next ⟨rfl, h, rfl⟩)
    subst hab
    exact pair_pure (.next ⟨rfl, h, rfl⟩)

theorem pair_findSeedsInwards (cfg : Cfg) {d e : Digraph} (up : Bool) (cap : Nat) (hd : DgEq d e) :
    Pair BadExc (ExcAlike SeedEq) (findSeedsInwards cfg d up cap) (findSeedsInwards cfg e up cap) := by
  unfold findSeedsInwards
  refine pair_exc (pair_sortByInwards up hd) (fun e he => ends_badExc he) (fun e => pair_pure .error) fun s t ho => ?_
  dsimp only
  rw [hd.n, ho.queue]
  refine pair_new pair_get (ends_next fun a => ?_) fun a b hm => pair_new pair_get ?_ fun a b hs => ?_
  · exact ends_next fun _ => ends_next fun _ => ends_next fun _ => ends_badFail badMemory
  · cases hm
    exact ends_next fun _ => ends_next fun _ => ends_next fun _ => ends_badFail badMemory
  cases hm
  cases hs
  refine pair_loop (fun a b v _ => pair_inwardsStep cfg up hd a b v) ⟨rfl, .mk (fun _ => Buf.get_raw_none), rfl⟩ (fun e c he => ?_) (fun e c d h => ?_) fun a b h => ?_
  · exact ends_next fun _ => ends_next fun _ => ends_next fun _ => ends_badExc he
  · exact pair_bind (pair_freeSort ho) fun _ _ _ => pair_bind pair_freeId fun _ _ _ => pair_bind (pair_freePtr h.seeds) fun _ _ _ => pair_pure .error
  · exact pair_bind (pair_freeSort ho) fun _ _ _ => pair_bind pair_freeId fun _ _ _ => pair_pure (.ok h.2.1)

/-! ### Exclusion -/

theorem pair_exclusionGraph (cfg : Cfg) {d e : Digraph} (keep : Option (List Nat)) (hd : DgEq d e) : Pair BadExc (ExcAlike DgEq) (exclusionGraph cfg d keep) (exclusionGraph cfg e keep) := by
  unfold exclusionGraph
  refine pair_exc (pair_digraphTranspose cfg hd) (fun e he => ends_badExc he) (fun e => pair_pure .error) fun a b ht => ?_
  refine pair_exc (pair_adjacencyProduct cfg _ hd ht) (fun e he => ends_next fun _ => ends_badExc he) (fun e => pair_bind (pair_freeDigraph ht) fun _ _ _ => pair_pure .error) fun a b hp => ?_
  refine pair_bind (pair_freeDigraph ht) fun _ _ _ => ?_
  refine pair_exc (pair_unionAndDelete cfg keep false (.cons hd (.cons hp .nil))) (fun e he => ends_next fun _ => ends_badExc he)
    (fun e => pair_bind (pair_freeDigraph hp) fun _ _ _ => pair_pure .error) fun a b hu => ?_
  exact pair_bind (pair_freeDigraph hp) fun _ _ _ => pair_pure (.ok hu)

/-- States of the search with an exclusion graph. -/
abbrev ExEq : Buf Bool × Buf Nat × SeedResult × Queue → Buf Bool × Buf Nat × SeedResult × Queue → Prop := PairAlike Eq (PairAlike Eq (PairAlike SeedEq Eq))

theorem pair_exclusionStep (cfg : Cfg) {l l' : List Nat} (tail : Buf Nat) (up : Bool) (a b : Buf Bool × Buf Nat × SeedResult × Queue) (p : Nat)
    (h : ExEq a b) : Pair BadCtl (CtlAlike ExEq (PairAlike Eq SeedEq)) (exclusionStep cfg l tail up a p) (exclusionStep cfg l' tail up b p) := by
  obtain ⟨ma, ha, s, q⟩ := a
  obtain ⟨mb, hb, t, q'⟩ := b
  obtain ⟨he, hh, h, hq⟩ := h
  dsimp only at he hh h hq
  subst he
  subst hh
  subst hq
  unfold exclusionStep
  dsimp only
  refine pair_bind (pair_useK rfl) fun a b hab => ?_
  subst hab
  refine pair_bind (pair_useK rfl) fun a b hab => ?_
  subst hab
  refine pair_ite Iff.rfl (fun _ => pair_code (pair_addSeed cfg _ h) (fun e a he => ends_code he (ends_pure (badCtl_stop he))) fun e a b h => pair_ite Iff.rfl (fun _ => pair_pure (.stop ⟨rfl, h⟩)) fun _ => ?_) fun _ => pair_pure (.next ⟨rfl, rfl, h, rfl⟩)
  refine pair_bind (pair_useK rfl) fun a b hab => ?_
  subst hab
  refine pair_ite Iff.rfl (fun _ => pair_bind (pair_useK rfl) fun a b hab => ?_) fun _ => pair_bind (pair_useK rfl) fun a b hab => ?_
  · subst hab
    exact pair_pure (.next ⟨rfl, rfl, h, rfl⟩)
  · subst hab
    exact pair_pure (.next ⟨rfl, rfl, h, rfl⟩)

theorem pair_exclusionMain (cfg : Cfg) {d e x y : Digraph} {i j : Nat} {m : Buf Bool} (up : Bool) (cap : Nat) (hd : DgEq d e) (hx : DgEq x y) :
    Pair BadExc (ExcAlike SeedEq) (exclusionMain cfg d up cap ⟨i, m⟩ x) (exclusionMain cfg e up cap ⟨j, m⟩ y) := by
  unfold exclusionMain
  refine pair_exc (pair_sortByInwards up hx) (fun e he => ends_next fun _ => ends_next fun _ => ends_badExc he)
    (fun e => pair_bind pair_freeId fun _ _ _ => pair_bind (pair_freeDigraph hx) fun _ _ _ => pair_pure .error) fun s t ho => ?_
  refine pair_new pair_get (ends_next fun _ => ends_next fun _ => ends_next fun _ => ends_badFail badMemory) fun a b hs => ?_
  cases hs
  dsimp only
  rw [hd.n, hx.hbuf, hx.tbuf, ho.queue]
  refine pair_loop (fun a b v _ => pair_exclusionStep cfg _ up a b v) ⟨rfl, rfl, .mk (fun _ => Buf.get_raw_none), rfl⟩ (fun e c he => ?_) (fun e c d h => ?_) fun a b h => ?_
  · exact ends_next fun _ => ends_next fun _ => ends_next fun _ => ends_next fun _ => ends_badExc he
  · exact pair_bind pair_freeId fun _ _ _ => pair_bind (pair_freeDigraph hx) fun _ _ _ => pair_bind (pair_freeSort ho) fun _ _ _ => pair_bind (pair_freePtr h.seeds) fun _ _ _ => pair_pure .error
  · exact pair_bind pair_freeId fun _ _ _ => pair_bind (pair_freeDigraph hx) fun _ _ _ => pair_bind (pair_freeSort ho) fun _ _ _ => pair_pure (.ok h.2.2.1)

theorem pair_tailsToKeep (n : Nat) {p q : Option (Blk Nat)} (buf : Buf Nat) (k : Nat) (h : PtrEq p q) : Pair never (PairAlike Eq PtrEq) (tailsToKeep n p buf k) (tailsToKeep n q buf k) := by
  unfold tailsToKeep
  refine pair_ite Iff.rfl (fun _ => pair_bind (pair_freePtr h) fun _ _ _ => pair_pure ⟨rfl, .null⟩) fun _ => pair_bind (pair_useK rfl) fun a b hab => ?_
  subst hab
  exact pair_pure ⟨rfl, h⟩

theorem pair_findSeedsExclusion (cfg : Cfg) {d e : Digraph} (up : Bool) (cap : Nat) (hd : DgEq d e) :
    Pair BadExc (ExcAlike SeedEq) (findSeedsExclusion cfg d up cap) (findSeedsExclusion cfg e up cap) := by
  unfold findSeedsExclusion
  rw [hd.n, hd.tbuf]
  refine pair_new pair_get (ends_badFail badMemory) fun a b hm => ?_
  cases hm
  refine pair_bind pair_getU fun p q hp => ?_
  cases hp
  refine pair_bind (Q := Eq) (pair_pure rfl) fun _ _ _ => ?_
  refine pair_bind (pair_useK rfl) fun a b hab => ?_
  subst hab
  refine pair_bind (pair_tailsToKeep _ _ _ (.ptr nm)) fun a b hab => ?_
  obtain ⟨k, p⟩ := a
  obtain ⟨k', q⟩ := b
  obtain ⟨hk, hp⟩ := hab
  dsimp only at hk hp ⊢
  subst hk
  refine pair_exc (pair_exclusionGraph cfg _ hd) (fun e he => ends_next fun _ => ends_badExc he) (fun e => pair_bind pair_freeId fun _ _ _ => pair_pure .error) fun a b hx => ?_
  exact pair_bind (pair_freePtr hp) fun _ _ _ => pair_exclusionMain cfg up cap hd hx

/-! ### Entry point -/

/-- Lists of seeds with the same seeds. The array may have entries that are not used, when it could not be made smaller. Reading the first seed
of an empty list is the same error in both. -/
inductive SeedsSame : SeedResult → SeedResult → Prop
  | mk {c c' k i j : Nat} {b b' : Buf Nat} (h : ∀ x, x < max k 1 → b.get x = b'.get x) : SeedsSame ⟨c, k, some ⟨i, b⟩⟩ ⟨c', k, some ⟨j, b'⟩⟩

theorem SeedsSame.count {s t : SeedResult} (h : SeedsSame s t) : s.count = t.count := by cases h; rfl
theorem SeedsSame.get {s t : SeedResult} (h : SeedsSame s t) {x : Nat} (hx : x < max s.count 1) : (ptrBuf s.seeds).get x = (ptrBuf t.seeds).get x := by cases h with | mk h => exact h x hx

theorem pair_freeSeeds {s t : SeedResult} (h : SeedsSame s t) : Pair never Eq (freePtr s.seeds) (freePtr t.seeds) := by
  cases h with | mk h => exact pair_freeId

theorem pair_shrinkSeeds {s t : SeedResult} (h : SeedEq s t) : Pair never SeedsSame (shrinkSeeds s) (shrinkSeeds t) := by
  cases h with
  | @mk c k i j b h =>
    unfold shrinkSeeds
    refine pair_ite Iff.rfl (fun _ => pair_bind pair_reallocS fun a b hab => ?_) fun _ => pair_pure (.mk fun _ _ => rfl)
    obtain ⟨rfl | ⟨i, rfl⟩, j, rfl⟩ := hab
    · refine pair_pure (.mk fun x hx => ?_)
      show (if x < b.len then b.cell x else none) = if x < k then (if x < b.len then b.cell x else none) else none
      by_cases hk : x < k
      · rw [if_pos hk]
      · rw [if_neg hk]
        have h0 := h (by omega)
        rw [show x = 0 by omega]
        exact h0
    · exact pair_pure (.mk fun _ _ => rfl)

theorem pair_findSeeds (cfg : Cfg) {d e : Digraph} (method : SeedMethod) (cap : Nat) (hd : DgEq d e) : Pair BadExc (ExcAlike SeedsSame) (findSeeds cfg d method cap) (findSeeds cfg e method cap) := by
  unfold findSeeds
  refine pair_exc (R := SeedEq) ?_ (fun e he => ends_badExc he) (fun e => pair_pure .error) fun a b h => ?_
  · cases method
    · exact pair_findSeedsLexical cfg cap hd
    · exact pair_findSeedsInwards cfg _ cap hd
    · exact pair_findSeedsInwards cfg _ cap hd
    · exact pair_findSeedsExclusion cfg _ cap hd
    · exact pair_findSeedsExclusion cfg _ cap hd
  · exact pair_bind (pair_shrinkSeeds h) fun _ _ h => pair_pure (.ok h)

end Scc
