/-
Calls that are made again in another state of the process do the same: rules and digraphs.
-/
import Verif.Spec.Repeat
import Verif.Proofs.Watch

namespace Scc

variable {T : Twin} {α β γ δ : Type}

/-! ### Rules -/

theorem Twin.Worlds.inj {w v : World} (h : T.Worlds w v) {i j j' : Nat} (h1 : T.Names i j) (h2 : T.Names i j') : j = j' := by
  rcases h1 with h1 | ⟨t, rfl, rfl⟩
  · rcases h2 with h2 | ⟨t, rfl, rfl⟩
    · exact h.inj1 _ _ _ h1 h2
    · exact absurd (h.old1 _ _ h1).1 (by omega)
  · rcases h2 with h2 | ⟨t', h3, rfl⟩
    · exact absurd (h.old1 _ _ h2).1 (by omega)
    · omega

theorem Twin.Worlds.inj' {w v : World} (h : T.Worlds w v) {i i' j : Nat} (h1 : T.Names i j) (h2 : T.Names i' j) : i = i' := by
  rcases h1 with h1 | ⟨t, rfl, rfl⟩
  · rcases h2 with h2 | ⟨t, rfl, rfl⟩
    · exact h.inj2 _ _ _ h1 h2
    · exact absurd (h.old1 _ _ h1).2 (by omega)
  · rcases h2 with h2 | ⟨t', rfl, h3⟩
    · exact absurd (h.old1 _ _ h2).2 (by omega)
    · omega

theorem Twin.Worlds.mem {w v : World} (h : T.Worlds w v) {i j : Nat} (hn : T.Names i j) : i ∈ w.live → j ∈ v.live := by
  rw [← Multiset.count_pos, ← Multiset.count_pos]
  exact fun hi => lt_of_lt_of_le hi (h.live i j hn).1

theorem same_pure {R : α → β → Prop} {a : α} {b : β} (h : R a b) : T.Same R (pure a) (pure b) := by
  intro w v a' w' hw hr
  cases hr
  exact ⟨b, v, rfl, hw, h⟩

theorem same_bind {Q : α → β → Prop} {R : γ → δ → Prop} {x : M α} {y : M β} {f : α → M γ} {g : β → M δ} (hx : T.Same Q x y) (hf : ∀ a b, Q a b → T.Same R (f a) (g b)) :
    T.Same R (x >>= f) (y >>= g) := by
  intro w v c w' hw hr
  obtain ⟨a, w1, h1, h2⟩ := bind_eq.1 hr
  obtain ⟨b, v1, h3, hw1, hq⟩ := hx w v a w1 hw h1
  obtain ⟨d, v2, h4, hw2, hr⟩ := hf a b hq w1 v1 c w' hw1 h2
  exact ⟨d, v2, bind_eq.2 ⟨b, v1, h3, h4⟩, hw2, hr⟩

theorem same_mono {Q R : α → β → Prop} {x : M α} {y : M β} (h : T.Same Q x y) (hqr : ∀ a b, Q a b → R a b) : T.Same R x y := by
  intro w v a w' hw hr
  obtain ⟨b, v', h1, h2, h3⟩ := h w v a w' hw hr
  exact ⟨b, v', h1, h2, hqr _ _ h3⟩

theorem same_none {R : α → β → Prop} {y : M β} : T.Same R (fun _ => none) y := by
  intro w v a w' hw hr
  cases hr

theorem same_ids {w v : World} (h : T.Worlds w v) {l l' : List Nat} (hl : IdsAlike T l l') : (∀ i ∈ l, i ∈ w.live) → ∀ j ∈ l', j ∈ v.live := by
  induction hl with
  | nil => exact fun _ _ h => absurd h (List.not_mem_nil)
  | cons hn _ ih =>
    intro hi j hj
    rcases List.mem_cons.1 hj with rfl | hj
    · exact h.mem hn (hi _ List.mem_cons_self)
    · exact ih (fun i hi' => hi i (List.mem_cons_of_mem _ hi')) j hj

theorem same_useK {l l' : List Nat} {k k' : Option α} (hl : IdsAlike T l l') (hk : k = k') : T.Same Eq (useK l k) (useK l' k') := by
  subst hk
  intro w v a w' hw hr
  unfold useK at hr ⊢
  by_cases h : ∀ i ∈ l, i ∈ w.live
  · rw [if_pos h] at hr
    rw [if_pos (same_ids hw hl h)]
    cases k with
    | none => cases hr
    | some k => cases hr; exact ⟨a, v, rfl, hw, rfl⟩
  · rw [if_neg h] at hr; cases hr

theorem same_touch {l l' : List Nat} (hl : IdsAlike T l l') : T.Same Eq (touch l) (touch l') := same_useK hl rfl

theorem fresh_eq {w : World} (h : ∀ i ∈ w.live, i < w.clock) : w.fresh = w.clock := by
  unfold World.fresh
  refine max_eq_left (Multiset.sup_le.2 fun b hb => ?_)
  obtain ⟨i, hi, rfl⟩ := Multiset.mem_map.1 hb
  exact h i hi

/-- The worlds after a request that failed. -/
theorem worlds_tick {w v : World} (h : T.Worlds w v) : T.Worlds { w with clock := w.clock + 1 } { v with clock := v.clock + 1 } := by
  obtain ⟨t, h1, h2⟩ := h.clock
  exact ⟨⟨t + 1, by show w.clock + 1 = _; omega, by show v.clock + 1 = _; omega⟩, h.fails, fun i hi => Nat.lt_succ_of_lt (h.below1 i hi), fun i hi => Nat.lt_succ_of_lt (h.below2 i hi), h.nodup1, h.nodup2,
    h.old1, h.inj1, h.inj2, h.live, h.err, h.calm, h.kept⟩

/-- The worlds after a request that succeeded. -/
theorem worlds_alloc {w v : World} (h : T.Worlds w v) : T.Worlds { w with clock := w.clock + 1, live := {w.clock} + w.live } { v with clock := v.clock + 1, live := {v.clock} + v.live } := by
  obtain ⟨t, h1, h2⟩ := h.clock
  have hn : T.Names w.clock v.clock := Or.inr ⟨t, h1, h2⟩
  refine ⟨⟨t + 1, by show w.clock + 1 = _; omega, by show v.clock + 1 = _; omega⟩, h.fails, fun i hi => ?_, fun i hi => ?_,
    Multiset.nodup_cons.2 ⟨fun hm => absurd (h.below1 _ hm) (Nat.lt_irrefl _), h.nodup1⟩, Multiset.nodup_cons.2 ⟨fun hm => absurd (h.below2 _ hm) (Nat.lt_irrefl _), h.nodup2⟩, h.old1, h.inj1, h.inj2, fun i j hij => ?_, h.err, h.calm, h.kept⟩
  · rcases Multiset.mem_add.1 hi with hi | hi
    · rw [Multiset.mem_singleton.1 hi]; exact Nat.lt_succ_self _
    · exact Nat.lt_succ_of_lt (h.below1 i hi)
  · rcases Multiset.mem_add.1 hi with hi | hi
    · rw [Multiset.mem_singleton.1 hi]; exact Nat.lt_succ_self _
    · exact Nat.lt_succ_of_lt (h.below2 i hi)
  · show ({w.clock} + w.live).count i ≤ ({v.clock} + v.live).count j ∧ (T.exact → ({v.clock} + v.live).count j ≤ ({w.clock} + w.live).count i)
    rw [Multiset.count_add, Multiset.count_add, Multiset.count_singleton, Multiset.count_singleton]
    have he : (if i = w.clock then 1 else 0) = if j = v.clock then 1 else 0 := by
      by_cases hi : i = w.clock
      · subst hi
        rw [if_pos rfl, if_pos (h.inj hij hn)]
      · rw [if_neg hi, if_neg fun hj : j = v.clock => hi (h.inj' (hj ▸ hij) hn)]
    rw [he]
    exact ⟨Nat.add_le_add_left (h.live i j hij).1 _, fun hx => Nat.add_le_add_left ((h.live i j hij).2 hx) _⟩

/-- The worlds after a block was freed. -/
theorem worlds_free {w v : World} (h : T.Worlds w v) {i j : Nat} (hn : T.Names i j) : T.Worlds { w with live := w.live.erase i } { v with live := v.live.erase j } := by
  refine ⟨h.clock, h.fails, fun k hk => h.below1 k (Multiset.mem_of_mem_erase hk), fun k hk => h.below2 k (Multiset.mem_of_mem_erase hk), h.nodup1.erase _, h.nodup2.erase _, h.old1, h.inj1, h.inj2, fun k l hkl => ?_, h.err, h.calm, h.kept⟩
  show (w.live.erase i).count k ≤ (v.live.erase j).count l ∧ (T.exact → (v.live.erase j).count l ≤ (w.live.erase i).count k)
  by_cases hk : k = i
  · subst hk
    obtain rfl := h.inj hkl hn
    rw [Multiset.count_erase_self, Multiset.count_erase_self]
    exact ⟨Nat.sub_le_sub_right (h.live _ _ hkl).1 1, fun hx => Nat.sub_le_sub_right ((h.live _ _ hkl).2 hx) 1⟩
  · rw [Multiset.count_erase_of_ne hk, Multiset.count_erase_of_ne fun hl : l = j => hk (h.inj' (hl ▸ hkl) hn)]
    exact h.live _ _ hkl

theorem same_alloc {init : Buf α} {c : Bool} : T.Same (PtrAlike T) (alloc init c) (alloc init c) := by
  intro w v a w' hw hr
  obtain ⟨t, h1, h2⟩ := hw.clock
  have hf : w.fails w.clock c = v.fails v.clock c := by rw [h1, h2]; exact hw.fails t c
  unfold alloc at hr ⊢
  rw [fresh_eq hw.below1] at hr
  rw [fresh_eq hw.below2]
  by_cases h : w.fails w.clock c = true
  · rw [if_pos h] at hr
    rw [if_pos (hf ▸ h)]
    cases hr
    exact ⟨_, _, rfl, worlds_tick hw, .null⟩
  · rw [if_neg h] at hr
    rw [if_neg (hf ▸ h)]
    cases hr
    exact ⟨_, _, rfl, worlds_alloc hw, .ptr (Or.inr ⟨t, h1, h2⟩)⟩

/-- When all requests succeed, they succeed. -/
theorem same_allocC {init : Buf α} {c : Bool} : T.Same (fun p q => PtrAlike T p q ∧ (T.calm → p ≠ none)) (alloc init c) (alloc init c) := by
  intro w v a w' hw hr
  obtain ⟨b, v', h1, h2, h3⟩ := same_alloc w v a w' hw hr
  refine ⟨b, v', h1, h2, h3, fun hc hn => ?_⟩
  subst hn
  unfold alloc at hr
  rw [if_neg (by rw [hw.calm hc]; exact Bool.false_ne_true)] at hr
  cases hr

theorem same_freeId {i j : Nat} (h : T.Names i j) : T.Same Eq (freeId i) (freeId j) := by
  intro w v a w' hw hr
  unfold freeId at hr ⊢
  by_cases hi : i ∈ w.live
  · rw [if_pos hi] at hr
    rw [if_pos (hw.mem h hi)]
    cases hr
    exact ⟨_, _, rfl, worlds_free hw h, rfl⟩
  · rw [if_neg hi] at hr; cases hr

/-- A block that is freed in the first process only. -/
theorem same_freeLeft {i : Nat} {R : α → β → Prop} {x : M α} {y : M β} (hx : ¬ T.exact) (h : T.Same R x y) : T.Same R (do freeId i; x) y := by
  intro w v a w' hw hr
  obtain ⟨u, w1, h1, h2⟩ := bind_eq.1 hr
  unfold freeId at h1
  by_cases hi : i ∈ w.live
  · rw [if_pos hi] at h1
    cases h1
    refine h { w with live := w.live.erase i } v a w' ⟨hw.clock, hw.fails, fun k hk => hw.below1 k (Multiset.mem_of_mem_erase hk), hw.below2, hw.nodup1.erase _, hw.nodup2, hw.old1, hw.inj1, hw.inj2, fun k l hkl => ?_, hw.err, hw.calm, hw.kept⟩ h2
    exact ⟨le_trans (Multiset.count_le_of_le _ (Multiset.erase_le _ _)) (hw.live k l hkl).1, fun h => absurd h hx⟩
  · rw [if_neg hi] at h1; cases h1

theorem same_freePtr {p q : Option (Blk α)} (h : PtrAlike T p q) : T.Same Eq (freePtr p) (freePtr q) := by
  cases h with
  | null => exact same_pure rfl
  | ptr h => exact same_freeId h

theorem same_realloc {b c : Blk α} {n : Nat} (h : BlkAlike T b c) : T.Same (PtrAlike T) (reallocBlk b n) (reallocBlk c n) := by
  intro w v a w' hw hr
  obtain ⟨h⟩ := h
  rename_i i j b
  obtain ⟨t, h1, h2⟩ := hw.clock
  have hf : w.fails w.clock true = v.fails v.clock true := by rw [h1, h2]; exact hw.fails t true
  unfold reallocBlk at hr ⊢
  rw [fresh_eq hw.below1] at hr
  rw [fresh_eq hw.below2]
  by_cases hl : i ∈ w.live ∧ 0 < n
  · rw [if_pos hl] at hr
    rw [if_pos ⟨hw.mem h hl.1, hl.2⟩]
    by_cases hw' : w.fails w.clock true = true
    · rw [if_pos hw'] at hr
      rw [if_pos (hf ▸ hw')]
      cases hr
      exact ⟨_, _, rfl, worlds_tick hw, .null⟩
    · rw [if_neg hw'] at hr
      rw [if_neg (hf ▸ hw')]
      cases hr
      exact ⟨_, _, rfl, worlds_alloc (worlds_free hw h), .ptr (Or.inr ⟨t, h1, h2⟩)⟩
  · rw [if_neg hl] at hr; cases hr

theorem same_mkErr {e : ErrorCode} {f : String} {l : Nat} {m : Option String} : T.Same Eq (mkErr e f l m) (mkErr e f l m) := by
  intro w v a w' hw hr
  cases hr
  exact ⟨_, _, rfl, ⟨hw.clock, hw.fails, hw.below1, hw.below2, hw.nodup1, hw.nodup2, hw.old1, hw.inj1, hw.inj2, hw.live, Or.inr rfl, hw.calm, hw.kept⟩, rfl⟩

theorem same_resetErr : T.Same Eq resetErr resetErr := by
  intro w v a w' hw hr
  cases hr
  exact ⟨_, _, rfl, ⟨hw.clock, hw.fails, hw.below1, hw.below2, hw.nodup1, hw.nodup2, hw.old1, hw.inj1, hw.inj2, hw.live, Or.inr rfl, hw.calm, hw.kept⟩, rfl⟩

theorem same_fail {R : α → β → Prop} {e : ErrorCode} {f : String} {l : Nat} {m : Option String} : T.Same (ExcAlike R) (fail e f l m) (fail e f l m) := by
  unfold fail
  exact same_bind same_mkErr fun a b h => same_pure (h ▸ .error)

theorem same_ite {R : α → β → Prop} {c c' : Prop} [Decidable c] [Decidable c'] {x y : M α} {x' y' : M β} (hc : c ↔ c') (hx : c → T.Same R x x') (hy : ¬ c → T.Same R y y') :
    T.Same R (if c then x else y) (if c' then x' else y') := by
  by_cases h : c
  · rw [if_pos h, if_pos (hc.1 h)]; exact hx h
  · rw [if_neg h, if_neg (fun h' => h (hc.2 h'))]; exact hy h

/-- Results that are a pair. -/
def PairAlike (Q : α → β → Prop) (R : γ → δ → Prop) (p : α × γ) (q : β × δ) : Prop := Q p.1 q.1 ∧ R p.2 q.2

/-- What a step of a loop tells. -/
inductive CtlAlike (Q : α → β → Prop) (R : γ → δ → Prop) : Ctl α γ → Ctl β δ → Prop
  | next {a : α} {b : β} (h : Q a b) : CtlAlike Q R (.next a) (.next b)
  | stop {a : γ} {b : δ} (h : R a b) : CtlAlike Q R (.stop a) (.stop b)

theorem same_foldBM {ε : Type} {Q : α → β → Prop} {R : γ → δ → Prop} {f : α → ε → M (Ctl α γ)} {g : β → ε → M (Ctl β δ)} (h : ∀ a b e, Q a b → T.Same (CtlAlike Q R) (f a e) (g b e)) (l : List ε)
    {a : α} {b : β} (hab : Q a b) : T.Same (CtlAlike Q R) (foldBM f a l) (foldBM g b l) := by
  induction l generalizing a b with
  | nil => exact same_pure (.next hab)
  | cons e l ih =>
    unfold foldBM
    refine same_bind (h a b e hab) fun c d hcd => ?_
    cases hcd with
    | next h => exact ih h
    | stop h => exact same_pure (.stop h)

/-! ### Pointers -/

theorem PtrAlike.buf {p q : Option (Blk α)} (h : PtrAlike T p q) : ptrBuf p = ptrBuf q := by cases h <;> rfl

theorem PtrAlike.ids {p q : Option (Blk α)} (h : PtrAlike T p q) : IdsAlike T (ptrIds p) (ptrIds q) := by
  cases h with
  | null => exact .nil
  | ptr h => exact .cons h .nil

theorem PtrAlike.set {p q : Option (Blk α)} (h : PtrAlike T p q) (b : Buf α) : PtrAlike T (ptrSet p b) (ptrSet q b) := by
  cases h with
  | null => exact .null
  | ptr h => exact .ptr h

theorem PtrAlike.isNone {p q : Option (Blk α)} (h : PtrAlike T p q) : p.isNone = q.isNone := by cases h <;> rfl

theorem PtrAlike.isSome {p q : Option (Blk α)} (h : PtrAlike T p q) : p.isSome = q.isSome := by cases h <;> rfl

theorem PtrAlike.arr {p q : Option (Blk Nat)} (h : PtrAlike T p q) : ArrAlike T (p.map fun b => ⟨[b.id], b.buf⟩) (q.map fun b => ⟨[b.id], b.buf⟩) := by
  cases h with
  | null => exact .null
  | ptr h => exact .arr (.cons h .nil)

theorem BlkAlike.ptr {b c : Blk α} (h : BlkAlike T b c) : PtrAlike T (some b) (some c) := by cases h with | mk h => exact .ptr h

theorem idsAlike_append {a b c d : List Nat} (h1 : IdsAlike T a b) (h2 : IdsAlike T c d) : IdsAlike T (a ++ c) (b ++ d) := List.rel_append h1 h2

theorem ArrAlike.ids {p q : Option Arr} (h : ArrAlike T p q) : IdsAlike T (arrIds p) (arrIds q) := by
  cases h with
  | null => exact .nil
  | arr h => exact h

theorem ArrAlike.get {p q : Option Arr} (h : ArrAlike T p q) : idxGet p = idxGet q := by cases h <;> rfl

theorem ArrAlike.bufs {p q : Option Arr} (h : ArrAlike T p q) : p.map Arr.buf = q.map Arr.buf := by cases h <;> rfl

theorem ArrAlike.isNone {p q : Option Arr} (h : ArrAlike T p q) : p.isNone = q.isNone := by cases h <;> rfl

theorem arrAlike_user (p : Option (Buf Nat)) : ArrAlike T (p.map fun b => ⟨[], b⟩) (p.map fun b => ⟨[], b⟩) := by
  cases p with
  | none => exact .null
  | some b => exact .arr .nil

/-! ### Digraphs -/

/-- Digraphs with the same contents. -/
inductive DigraphAlike (T : Twin) : Digraph → Digraph → Prop
  | mk {n m : Nat} {h h' t t' : Option (Blk Nat)} (hh : PtrAlike T h h') (ht : PtrAlike T t t') : DigraphAlike T ⟨n, m, h, t⟩ ⟨n, m, h', t'⟩

theorem DigraphAlike.ids {d e : Digraph} (h : DigraphAlike T d e) : IdsAlike T d.ids e.ids := by
  cases h with | mk hh ht => exact idsAlike_append hh.ids ht.ids

theorem DigraphAlike.n {d e : Digraph} (h : DigraphAlike T d e) : d.n = e.n := by cases h; rfl
theorem DigraphAlike.head {d e : Digraph} (h : DigraphAlike T d e) : PtrAlike T d.head e.head := by cases h with | mk hh ht => exact hh
theorem DigraphAlike.tail {d e : Digraph} (h : DigraphAlike T d e) : PtrAlike T d.tail e.tail := by cases h with | mk hh ht => exact ht
theorem DigraphAlike.hbuf {d e : Digraph} (h : DigraphAlike T d e) : ptrBuf d.head = ptrBuf e.head := h.head.buf
theorem DigraphAlike.tbuf {d e : Digraph} (h : DigraphAlike T d e) : ptrBuf d.tail = ptrBuf e.tail := h.tail.buf

theorem DigraphAlike.set {d e : Digraph} (h : DigraphAlike T d e) (b c : Buf Nat) :
    DigraphAlike T { d with head := ptrSet d.head b, tail := ptrSet d.tail c } { e with head := ptrSet e.head b, tail := ptrSet e.tail c } := by
  cases h with | mk hh ht => exact .mk (hh.set _) (ht.set _)

theorem DigraphAlike.setHead {d e : Digraph} (h : DigraphAlike T d e) (b : Buf Nat) :
    DigraphAlike T { d with head := ptrSet d.head b } { e with head := ptrSet e.head b } := by
  cases h with | mk hh ht => exact .mk (hh.set _) ht

theorem same_freeDigraph {d e : Digraph} (h : DigraphAlike T d e) : T.Same (DigraphAlike T) (freeDigraph d) (freeDigraph e) := by
  unfold freeDigraph
  exact same_bind (same_freePtr h.head) fun _ _ _ => same_bind (same_freePtr h.tail) fun _ _ _ => same_pure (.mk .null .null)

theorem same_isEmpty {d e : Digraph} (h : DigraphAlike T d e) : T.Same Eq (useK d.ids (digraphIsEmpty d)) (useK e.ids (digraphIsEmpty e)) :=
  same_useK h.ids (by unfold digraphIsEmpty; rw [h.tbuf, h.n])

theorem same_initDigraph (cfg : Cfg) (n m : Nat) : T.Same (ExcAlike (DigraphAlike T)) (initDigraph cfg n m) (initDigraph cfg n m) := by
  unfold initDigraph
  refine same_ite Iff.rfl (fun _ => same_fail) fun _ => same_bind same_alloc fun a b h => ?_
  cases h with
  | null => exact same_fail
  | ptr h =>
    refine same_ite Iff.rfl (fun _ => same_bind same_alloc fun a b h' => ?_) fun _ => same_pure (.ok (.mk .null (.ptr h)))
    cases h' with
    | null => exact same_bind (same_freeDigraph (.mk .null (.ptr h))) fun _ _ _ => same_fail
    | ptr h' => exact same_pure (.ok (.mk (.ptr h') (.ptr h)))

theorem same_emptyDigraph (cfg : Cfg) (n m : Nat) : T.Same (ExcAlike (DigraphAlike T)) (emptyDigraph cfg n m) (emptyDigraph cfg n m) := by
  unfold emptyDigraph
  refine same_ite Iff.rfl (fun _ => same_fail) fun _ => same_bind same_alloc fun a b h => ?_
  cases h with
  | null => exact same_fail
  | ptr h =>
    refine same_ite Iff.rfl (fun _ => same_bind same_alloc fun a b h' => ?_) fun _ => same_pure (.ok (.mk .null (.ptr h)))
    cases h' with
    | null => exact same_bind (same_freeDigraph (.mk .null (.ptr h))) fun _ _ _ => same_fail
    | ptr h' => exact same_pure (.ok (.mk (.ptr h') (.ptr h)))

theorem same_reallocHead {p q : Option (Blk Nat)} (n : Nat) (h : PtrAlike T p q) : T.Same (PtrAlike T) (reallocHead p n) (reallocHead q n) := by
  cases h with
  | null => exact same_alloc
  | ptr h => exact same_realloc (.mk h)

theorem same_changeArcStorage (cfg : Cfg) {d e : Digraph} (m : Nat) (h : DigraphAlike T d e) :
    T.Same (PairAlike Eq (DigraphAlike T)) (changeArcStorage cfg d m) (changeArcStorage cfg e m) := by
  unfold changeArcStorage
  cases h with
  | mk hh ht =>
    refine same_ite Iff.rfl (fun _ => same_bind same_mkErr fun _ _ he => same_pure ⟨he, .mk hh ht⟩) fun _ => ?_
    refine same_ite Iff.rfl (fun _ => same_pure ⟨rfl, .mk hh ht⟩) fun _ => ?_
    refine same_ite Iff.rfl (fun _ => same_bind (same_freePtr hh) fun _ _ _ => same_pure ⟨rfl, .mk .null ht⟩) fun _ => ?_
    refine same_bind (same_reallocHead _ hh) fun a b hab => ?_
    cases hab with
    | null => exact same_bind same_mkErr fun _ _ he => same_pure ⟨he, .mk hh ht⟩
    | ptr h => exact same_pure ⟨rfl, .mk (.ptr h) ht⟩

theorem same_deleteLoops (cfg : Cfg) {d e : Digraph} (h : DigraphAlike T d e) : T.Same (PairAlike Eq (DigraphAlike T)) (deleteLoops cfg d) (deleteLoops cfg e) := by
  unfold deleteLoops
  refine same_bind (same_isEmpty h) fun a b hab => ?_
  subst hab
  refine same_ite Iff.rfl (fun _ => same_pure ⟨rfl, h⟩) fun _ => ?_
  refine same_bind (same_useK h.ids (by rw [h.n, h.hbuf, h.tbuf])) fun a b hab => ?_
  subst hab
  exact same_changeArcStorage cfg _ (h.set _ _)

theorem same_allocOutput (cfg : Cfg) (n greedy : Nat) {r r' : Nat} {ids ids' : List Nat} (count : Option UnionSt) (hr : T.Names r r') (hi : IdsAlike T ids ids') :
    T.Same (ExcAlike (DigraphAlike T)) (allocOutput cfg n greedy r ids count) (allocOutput cfg n greedy r' ids' count) := by
  unfold allocOutput
  refine same_bind (same_initDigraph _ _ _) fun a b h => ?_
  cases h with
  | ok h => exact same_pure (.ok h)
  | error =>
    refine same_bind same_resetErr fun _ _ _ => same_bind (same_useK (.cons hr hi) rfl) fun a b h => ?_
    subst h
    exact same_initDigraph _ _ _

theorem same_buildDigraph (cfg : Cfg) (n greedy : Nat) {r r' : Nat} {ids ids' : List Nat} (count : Option UnionSt) (write : Buf Nat → Buf Nat → Option UnionSt) (hr : T.Names r r')
    (hi : IdsAlike T ids ids') : T.Same (ExcAlike (DigraphAlike T)) (buildDigraph cfg n greedy r ids count write) (buildDigraph cfg n greedy r' ids' count write) := by
  unfold buildDigraph
  refine same_bind (same_allocOutput _ _ _ _ hr hi) fun a b h => ?_
  cases h with
  | error => exact same_bind (same_freeId hr) fun _ _ _ => same_pure .error
  | ok h =>
    refine same_bind (same_useK (idsAlike_append (.cons hr h.ids) hi) (by rw [h.hbuf, h.tbuf])) fun a b hab => ?_
    subst hab
    refine same_bind (same_freeId hr) fun _ _ _ => same_bind (same_changeArcStorage cfg _ (h.set _ _)) fun a b hab => ?_
    obtain ⟨e, d⟩ := a
    obtain ⟨e', d'⟩ := b
    obtain ⟨he, hd⟩ := hab
    dsimp only at he hd ⊢
    subst he
    refine same_ite Iff.rfl (fun _ => same_bind (same_freeDigraph hd) fun _ _ _ => same_pure .error) fun _ => same_pure (.ok hd)

theorem same_unionAndDelete (cfg : Cfg) {ds es : List Digraph} (tails : Option (List Nat)) (keep : Bool) (h : List.Forall₂ (DigraphAlike T) ds es) :
    T.Same (ExcAlike (DigraphAlike T)) (unionAndDelete cfg ds tails keep) (unionAndDelete cfg es tails keep) := by
  have hi : IdsAlike T (ds.flatMap Digraph.ids) (es.flatMap Digraph.ids) := by
    induction h with
    | nil => exact .nil
    | cons h _ ih => rw [List.flatMap_cons, List.flatMap_cons]; exact idsAlike_append h.ids ih
  have hb : (ds.map fun d => (ptrBuf d.head, ptrBuf d.tail)) = es.map fun d => (ptrBuf d.head, ptrBuf d.tail) := by
    clear hi
    induction h with
    | nil => rfl
    | cons h _ ih => rw [List.map_cons, List.map_cons, ih, h.hbuf, h.tbuf]
  have hn : ds.head?.map Digraph.n = es.head?.map Digraph.n := by
    cases h with
    | nil => rfl
    | cons h _ => exact congrArg some h.n
  unfold unionAndDelete
  dsimp only
  rw [hb]
  refine same_bind (same_useK hi hn) fun a b hab => ?_
  subst hab
  refine same_bind (same_useK hi rfl) fun a b hab => ?_
  subst hab
  refine same_bind same_alloc fun a b hab => ?_
  cases hab with
  | null => exact same_fail
  | ptr h => exact same_buildDigraph cfg _ _ _ _ h hi

theorem same_digraphDifference (cfg : Cfg) {m m' s s' : Digraph} (k : Nat) (hm : DigraphAlike T m m') (hs : DigraphAlike T s s') :
    T.Same (PairAlike Eq (DigraphAlike T)) (digraphDifference cfg m s k) (digraphDifference cfg m' s' k) := by
  unfold digraphDifference
  refine same_bind (same_isEmpty hm) fun a b hab => ?_
  subst hab
  refine same_ite Iff.rfl (fun _ => same_pure ⟨rfl, hm⟩) fun _ => ?_
  refine same_bind (Q := PtrAlike T) (by rw [hm.n]; exact same_alloc) fun a b hab => ?_
  cases hab with
  | null => exact same_bind same_mkErr fun _ _ he => same_pure ⟨he, hm⟩
  | ptr h =>
    refine same_bind (same_useK (idsAlike_append (.cons h hm.ids) hs.ids) (by rw [hm.n, hm.hbuf, hm.tbuf, hs.hbuf, hs.tbuf])) fun a b hab => ?_
    subst hab
    exact same_bind (same_freeId h) fun _ _ _ => same_changeArcStorage cfg _ (hm.set _ _)

theorem same_digraphTranspose (cfg : Cfg) {d e : Digraph} (h : DigraphAlike T d e) : T.Same (ExcAlike (DigraphAlike T)) (digraphTranspose cfg d) (digraphTranspose cfg e) := by
  unfold digraphTranspose
  rw [h.n]
  refine same_bind (same_useK h.ids (by rw [h.tbuf])) fun a b hab => ?_
  subst hab
  refine same_bind (same_emptyDigraph _ _ _) fun a b hab => ?_
  cases hab with
  | error => exact same_pure .error
  | ok ho =>
    refine same_bind (same_isEmpty h) fun a b hab => ?_
    subst hab
    refine same_ite Iff.rfl (fun _ => same_pure (.ok ho)) fun _ => ?_
    refine same_bind (same_useK (idsAlike_append h.ids ho.ids) (by rw [h.hbuf, h.tbuf, ho.hbuf, ho.tbuf])) fun a b hab => ?_
    subst hab
    exact same_pure (.ok (ho.set _ _))

theorem same_adjacencyProduct (cfg : Cfg) {a a' b b' : Digraph} (f : Bool) (ha : DigraphAlike T a a') (hb : DigraphAlike T b b') :
    T.Same (ExcAlike (DigraphAlike T)) (adjacencyProduct cfg a b f) (adjacencyProduct cfg a' b' f) := by
  unfold adjacencyProduct
  dsimp only
  rw [ha.n, ha.hbuf, ha.tbuf, hb.hbuf, hb.tbuf]
  refine same_bind same_alloc fun x y hab => ?_
  cases hab with
  | null => exact same_fail
  | ptr h =>
    refine same_bind (same_useK (idsAlike_append ha.ids hb.ids) rfl) fun a b hab => ?_
    subst hab
    exact same_buildDigraph cfg _ _ _ _ h (idsAlike_append ha.ids hb.ids)

end Scc
