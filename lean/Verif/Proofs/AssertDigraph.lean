/-
The digraph functions with assertions do the same as the functions without.
-/
import Verif.Model.AssertDigraph
import Verif.Proofs.Assert
import Verif.Proofs.DigraphDebug

set_option linter.unusedSimpArgs false
set_option linter.unusedVariables false

namespace Scc

theorem useK_bind {α β : Type} {ids : List Nat} {k : Option α} {a : α} {f : α → M β} {w : World} (hl : ∀ i ∈ ids, i ∈ w.live) (hk : k = some a) :
    (useK ids k >>= f) w = f a w := by
  show (useK ids k w).bind _ = _
  have : useK ids k w = some (a, w) := by
    unfold useK
    rw [if_pos hl, hk]; rfl
  rw [this]; rfl

theorem asrtK_bind {β : Type} {ids : List Nat} {k : Option Bool} {f : Unit → M β} {w : World} (hl : ∀ i ∈ ids, i ∈ w.live) (hk : k = some true) :
    (asrtK ids k >>= f) w = f () w := by
  unfold asrtK
  rw [bind_assoc, useK_bind hl hk, asrtM_bind rfl]

/-- Rule for loops in which the invariant is only known to be kept when the step returns. -/
theorem forLt_same {σ : Type} {f g : Nat → σ → Option σ} (I : Nat → σ → Prop) {lo hi : Nat} {s : σ} (h0 : I lo s)
    (hs : ∀ i s, lo ≤ i → i < hi → I i s → f i s = g i s ∧ ∀ s', g i s = some s' → I (i + 1) s') : forLt lo hi s f = forLt lo hi s g := by
  unfold forLt
  suffices H : ∀ n lo s, I lo s → (∀ i s, lo ≤ i → i < lo + n → I i s → f i s = g i s ∧ ∀ s', g i s = some s' → I (i + 1) s') →
      (List.range' lo n).foldlM (fun s i => f i s) s = (List.range' lo n).foldlM (fun s i => g i s) s from
    H _ lo s h0 fun i s h1 h2 => hs i s h1 (by omega)
  clear hs h0
  intro n
  induction n with
  | zero => intros; rfl
  | succ n ih =>
    intro lo s h0 hs
    rw [List.range'_succ, List.foldlM_cons, List.foldlM_cons]
    obtain ⟨h1, h2⟩ := hs lo s le_rfl (by omega) h0
    rw [h1]
    exact bind_eq_some fun a ha => ih (lo + 1) a (h2 a ha) fun i s h3 h4 => hs i s (by omega) (by omega)

theorem Digraph.Storage.initialized {cfg : Cfg} {d : Digraph} {n m : Nat} (h : d.Storage cfg n m) (hpm : n ≤ cfg.pointMax) : digraphIsInitialized cfg d = true := by
  unfold digraphIsInitialized
  have h1 : d.tail.isNone = false := by
    cases ht : d.tail with
    | none => have := h.tail_len; rw [ht] at this; simp [ptrBuf] at this
    | some b => rfl
  have h2 := h.n_eq
  have h3 := h.m_eq
  have h4 := h.arcs
  have h5 := h.head_null
  rw [h1, if_neg Bool.false_ne_true, if_neg (by omega)]
  cases hh : d.head with
  | none => rw [if_neg (by simp), if_neg (by have := h5.2 hh; omega)]
  | some b =>
    have : m ≠ 0 := fun h0 => by rw [h5.1 h0] at hh; cases hh
    rw [if_neg (by omega), if_neg (by simp)]

theorem Digraph.Repr.initialized {cfg : Cfg} {d : Digraph} {rows : Nat → List Nat} (h : d.Repr cfg rows) : digraphIsInitialized cfg d = true :=
  h.storage.initialized h.vertices

theorem Digraph.Repr.head_ne {cfg : Cfg} {d : Digraph} {rows : Nat → List Nat} (h : d.Repr cfg rows) (hn : off rows d.n ≠ 0) : d.head ≠ none := by
  intro hh
  have h1 := h.head_null.2 hh
  have h2 := h.off_le
  omega

theorem digraphIsEmptyDbg_eq {cfg : Cfg} {d : Digraph} {rows : Nat → List Nat} (h : d.Repr cfg rows) : digraphIsEmptyDbg cfg d = digraphIsEmpty d := by
  unfold digraphIsEmptyDbg
  rw [asrt_bind h.initialized]

theorem asrtValid_bind {cfg : Cfg} {d : Digraph} {rows : Nat → List Nat} {β : Type} {f : Unit → M β} {w : World} (h : d.Repr cfg rows) (hl : ∀ i ∈ d.ids, i ∈ w.live) :
    (asrtValid cfg d >>= f) w = f () w := asrtK_bind hl (digraphIsValid_repr h)

theorem asrtNonempty_bind {cfg : Cfg} {d : Digraph} {rows : Nat → List Nat} {β : Type} {f : Unit → M β} {w : World} (h : d.Repr cfg rows) (hn : off rows d.n ≠ 0)
    (hl : ∀ i ∈ d.ids, i ∈ w.live) : (asrtNonempty cfg d >>= f) w = f () w := by
  refine asrtK_bind hl ?_
  rw [digraphIsEmptyDbg_eq h, digraphIsEmpty_spec h]
  simp [hn]

theorem initDigraphDbg_eq {cfg : Cfg} {n m : Nat} {w : World} (h0 : 0 < n) (hp : n ≤ cfg.pointMax) (hz : n < cfg.sizeMax) : initDigraphDbg cfg n m w = initDigraph cfg n m w := by
  unfold initDigraphDbg
  rw [asrtM_bind h0, asrtM_bind hp, asrtM_bind hz]
  conv => rhs; rw [← bind_pure (initDigraph cfg n m)]
  refine mbind_eq rfl (initDigraph_spec cfg n m w) ?_
  rintro (e | d) w' h
  · rfl
  · dsimp only at h ⊢
    rw [asrtM_bind (h.2.2.2.initialized hp)]

theorem Digraph.Storage.empty_repr {cfg : Cfg} {d : Digraph} {n m : Nat} (h : d.Storage cfg n m) (hpm : n ≤ cfg.pointMax) (ht : ∀ v, v ≤ n → (ptrBuf d.tail).get v = some 0) :
    d.Repr cfg (fun _ => []) := by
  refine ⟨?_, by rw [h.tail_len, h.n_eq], by rw [h.head_len, h.m_eq], by rw [h.n_eq]; exact hpm, by rw [h.m_eq]; exact h.arcs, by rw [h.m_eq]; exact h.arcs_size,
    by rw [h.m_eq]; exact h.head_null⟩
  rw [h.n_eq]
  exact ⟨fun v hv => by rw [ht v hv, off_nil (fun _ _ => rfl)], fun v hv j a hj => by simp at hj, fun v hv a ha => by simp at ha⟩

theorem emptyDigraphDbg_eq {cfg : Cfg} {n m : Nat} {w : World} (h0 : 0 < n) (hp : n ≤ cfg.pointMax) (hz : n < cfg.sizeMax) : emptyDigraphDbg cfg n m w = emptyDigraph cfg n m w := by
  unfold emptyDigraphDbg
  rw [asrtM_bind h0, asrtM_bind hp, asrtM_bind hz]
  conv => rhs; rw [← bind_pure (emptyDigraph cfg n m)]
  refine mbind_eq rfl (emptyDigraph_spec cfg n m w) ?_
  rintro (e | d) w' h
  · rfl
  · dsimp only at h ⊢
    rw [asrtValid_bind (h.2.2.2.1.empty_repr hp h.2.2.2.2)]
    intro i hi
    rw [h.2.1]; exact Multiset.mem_add.2 (Or.inl (mem_ids_iff_own.1 hi))

theorem changeArcStorageDbg_eq {cfg : Cfg} {d : Digraph} {n m k t : Nat} {w : World} (hs : d.Storage cfg n m) (hp : n ≤ cfg.pointMax) (ht : (ptrBuf d.tail).get n = some t)
    (hk : t ≤ k) (hl : ∀ i ∈ d.ids, i ∈ w.live) : changeArcStorageDbg cfg d k w = changeArcStorage cfg d k w := by
  unfold changeArcStorageDbg
  rw [asrtM_bind (hs.initialized hp), useK_bind hl (by rw [hs.n_eq]; exact ht), asrtM_bind hk]

theorem ptrIds_ptrSet {α : Type} {p : Option (Blk α)} {b : Buf α} : ptrIds (ptrSet p b) = ptrIds p := by cases p <;> rfl

/-- The storage of a digraph whose arrays got new contents. -/
theorem Digraph.Storage.refill {cfg : Cfg} {d : Digraph} {n m : Nat} {h t : Buf Nat} (hs : d.Storage cfg n m) (hh : h.len = (ptrBuf d.head).len) (ht : t.len = (ptrBuf d.tail).len) :
    ({ d with head := ptrSet d.head h, tail := ptrSet d.tail t } : Digraph).Storage cfg n m :=
  ⟨hs.n_eq, hs.m_eq, by show (ptrBuf (ptrSet d.tail t)).len = _; rw [ptrSet_len ht]; exact hs.tail_len,
    by show (ptrBuf (ptrSet d.head h)).len = _; rw [ptrSet_len hh]; exact hs.head_len, hs.arcs, hs.arcs_size,
    by show _ ↔ ptrSet d.head h = none; rw [ptrSet_eq_none]; exact hs.head_null⟩

theorem deleteLoopsDbg_eq {cfg : Cfg} {d : Digraph} {rows : Nat → List Nat} {w : World} (h : d.Repr cfg rows) (hl : ∀ i ∈ d.ids, i ∈ w.live) :
    deleteLoopsDbg cfg d w = deleteLoops cfg d w := by
  unfold deleteLoopsDbg deleteLoops
  rw [asrtValid_bind h hl, digraphIsEmptyDbg_eq h, useK_bind hl (digraphIsEmpty_spec h), useK_bind hl (digraphIsEmpty_spec h)]
  by_cases he : off rows d.n = 0
  · simp only [he, decide_true, if_true]
  simp only [he, decide_false, Bool.false_eq_true, if_false]
  rw [asrtM_bind (h.head_ne he), asrtM_bind h.vertices]
  refine mbind_eq rfl (wpM_useK.2 ⟨hl, (deleteLoopsK_spec h.csr).mono fun a ha => ⟨rfl, ha⟩⟩ : WpM _ w fun a w' => w' = w ∧ _) ?_
  rintro ⟨hd, tl, hw⟩ w' ⟨rfl, h1, h2, h3, h4⟩
  dsimp only at h1 h2 h3 h4 ⊢
  refine changeArcStorageDbg_eq (h.storage.refill h3 h4) h.vertices (t := hw) ?_ le_rfl ?_
  · show (ptrBuf (ptrSet d.tail tl)).get d.n = _
    rw [ptrSet_get h4, h2.total, h1]
  · simpa [Digraph.ids, ptrIds_ptrSet] using hl

/-! ### Union and product -/

theorem allocOutputDbg_eq {cfg : Cfg} {n greedy rmId : Nat} {ids : List Nat} {count : Option UnionSt} {w : World} (h0 : 0 < n) (hp : n ≤ cfg.pointMax) (hz : n < cfg.sizeMax) :
    allocOutputDbg cfg n greedy rmId ids count w = allocOutput cfg n greedy rmId ids count w := by
  have hi : ∀ m, initDigraphDbg cfg n m = initDigraph cfg n m := fun m => funext fun w => initDigraphDbg_eq h0 hp hz
  unfold allocOutputDbg allocOutput
  simp only [hi]
  rfl

theorem buildDigraphDbg_eq {cfg : Cfg} {n : Nat} {rows : Nat → List Nat} {w : World} {rmId : Nat} {ids : List Nat} {greedy : Nat}
    {count : Option UnionSt} {write : Buf Nat → Buf Nat → Option UnionSt} {count' : Option UnionSt} {write' : Digraph → Option UnionSt} (L : Multiset Nat)
    (hlive : w.live = {rmId} + L)
    (hids : ∀ i ∈ ids, i ∈ L) (h0 : 0 < n) (hpm : n ≤ cfg.pointMax) (hz : n < cfg.sizeMax) (hg : off rows n ≤ greedy)
    (hcount : Wp count (fun st => st.cnt = off rows n))
    (hwrite : ∀ oT oH : Buf Nat, oT.len = n + 1 → off rows n ≤ oH.len → Wp (write oT oH) (fun st =>
      st.cnt = off rows n ∧ Csr n st.head st.tail rows ∧ st.head.len = oH.len ∧ st.tail.len = oT.len))
    (hc : count' = count) (hw : ∀ d m, off rows n ≤ m → d.Storage cfg n m → write' d = write (ptrBuf d.tail) (ptrBuf d.head)) :
    buildDigraphDbg cfg n greedy rmId ids count' write' w = buildDigraph cfg n greedy rmId ids count write w := by
  subst hc
  unfold buildDigraphDbg buildDigraph
  have mid : WpM (allocOutput cfg n greedy rmId ids count') w (fun r w2 => match r with
      | .error e => True
      | .ok d => w2.live = d.own + w.live ∧ ∃ m, off rows n ≤ m ∧ d.Storage cfg n m) := by
    unfold allocOutput
    rw [wpM_bind]
    refine (initDigraph_spec cfg n greedy w).mono ?_
    rintro (e | d) w1 hr
    · dsimp only at hr ⊢
      rw [wpM_bind]
      refine wpM_resetErr fun w2 k1 k2 k3 => ?_
      rw [wpM_bind, wpM_useK]
      refine ⟨?_, ?_⟩
      · intro i hi
        rw [k2, hr.live, hlive]
        rcases List.mem_cons.1 hi with rfl | hi
        · simp
        · exact Multiset.mem_add.2 (Or.inr (hids i hi))
      refine hcount.mono fun st hst => ?_
      rw [hst]
      refine (initDigraph_spec cfg n (off rows n) w2).mono ?_
      rintro (e' | d) w3 hr3
      · trivial
      · obtain ⟨h1, h2, h3, h4⟩ := hr3
        exact ⟨by rw [h2, k2, hr.live], _, le_rfl, h4⟩
    · dsimp only at hr ⊢
      rw [wpM_pure]
      exact ⟨hr.2.1, _, hg, hr.2.2.2⟩
  refine mbind_eq (allocOutputDbg_eq h0 hpm hz) mid ?_
  rintro (e | d) w1 h
  · rfl
  obtain ⟨hl1, m, hm, hs⟩ := h
  dsimp only
  rw [hw d m hm hs]
  have hlids : ∀ i ∈ rmId :: d.ids ++ ids, i ∈ w1.live := by
    intro i hi
    rw [hl1, hlive]
    simp only [List.cons_append, List.mem_cons, List.mem_append] at hi
    rcases hi with rfl | hi | hi
    · simp
    · exact Multiset.mem_add.2 (Or.inl (mem_ids_iff_own.1 hi))
    · exact Multiset.mem_add.2 (Or.inr (Multiset.mem_add.2 (Or.inr (hids i hi))))
  refine mbind_eq rfl (wpM_useK.2 ⟨hlids, (hwrite _ _ hs.tail_len (by rw [hs.head_len]; exact hm)).mono fun a ha => ⟨rfl, ha⟩⟩ : WpM _ w1 fun a w' => w' = w1 ∧ _) ?_
  rintro st w' ⟨rfl, g1, g2, g3, g4⟩
  refine mbind_eq (Q := fun _ w2 => w2.live = d.own + L) rfl (wpM_freeId (d.own + L) (by rw [hl1, hlive]; ac_rfl) fun w3 k1 k2 k3 => k2) ?_
  intro _ w2 hl2
  refine mbind_same (changeArcStorageDbg_eq (hs.refill g3 g4) hpm (t := st.cnt) ?_ le_rfl ?_)
  · show (ptrBuf (ptrSet d.tail st.tail)).get n = _
    rw [ptrSet_get g4, g2.total, g1]
  · intro i hi
    rw [hl2]
    refine Multiset.mem_add.2 (Or.inl (mem_ids_iff_own.1 ?_))
    simpa [Digraph.ids, ptrIds_ptrSet] using hi

theorem unionArgsDbg_eq {cfg : Cfg} {n : Nat} {inDgs : List Digraph} {rowss : List (Nat → List Nat)} (hne : inDgs ≠ []) (h0 : 0 < n)
    (hd : List.Forall₂ (fun d r => d.Repr cfg r ∧ d.n = n) inDgs rowss) (hpm : n ≤ cfg.pointMax) : unionArgsDbg cfg inDgs n = some () := by
  have hall : ∀ d ∈ inDgs, digraphIsInitialized cfg d = true ∧ d.n = n := by
    clear hne
    induction hd with
    | nil => simp
    | cons h _ ih =>
      intro d hd
      rcases List.mem_cons.1 hd with rfl | hd
      · exact ⟨h.1.initialized, h.2⟩
      · exact ih d hd
  unfold unionArgsDbg
  rw [asrt_bind hne, asrt_bind h0, asrt_bind hall]
  unfold asrt; rw [if_pos hpm]

/-- Counted arcs have been written. -/
theorem scanRow_room {head tail : Buf Nat} {r v : Nat} {st st' : UnionSt} (h : scanRow true head tail r v st = some st') (hc : 0 < st.cnt → 0 < st.head.len) :
    st'.head.len = st.head.len ∧ (0 < st'.cnt → 0 < st.head.len) := by
  unfold scanRow rowLoop at h
  cases h1 : tail.get (r + 1) with
  | none => rw [h1] at h; cases h
  | some stop =>
  cases h2 : tail.get r with
  | none => rw [h1, h2] at h; cases h
  | some start =>
  rw [h1, h2] at h
  change forNe start stop st _ = some st' at h
  unfold forNe at h
  split at h
  swap
  · cases h
  suffices H : ∀ (l : List Nat) (s s' : UnionSt), s.head.len = st.head.len → (0 < s.cnt → 0 < st.head.len) →
      l.foldlM (fun s i => (do
        let a ← head.get i
        let m ← s.rm.get a
        if m ≠ v then do
          let rm ← s.rm.set a v
          let head ← if true then s.head.set s.cnt a else pure s.head
          pure { s with rm := rm, head := head, cnt := s.cnt + 1 }
        else pure s : Option UnionSt)) s = some s' → s'.head.len = st.head.len ∧ (0 < s'.cnt → 0 < st.head.len) from H _ st st' rfl hc h
  intro l
  induction l with
  | nil => intro s s' a b hs; cases hs; exact ⟨a, b⟩
  | cons i l ih =>
    intro s s' a b hs
    rw [List.foldlM_cons] at hs
    obtain ⟨s1, hs1, hs2⟩ := Option.bind_eq_some_iff.1 hs
    obtain ⟨x, hx, hs1⟩ := Option.bind_eq_some_iff.1 hs1
    obtain ⟨m, hm, hs1⟩ := Option.bind_eq_some_iff.1 hs1
    split at hs1
    · obtain ⟨rm, -, hs1⟩ := Option.bind_eq_some_iff.1 hs1
      rw [if_pos rfl] at hs1
      obtain ⟨hd, hhd, hs1⟩ := Option.bind_eq_some_iff.1 hs1
      have hlt : s.cnt < s.head.len ∧ hd.len = s.head.len := by
        unfold Buf.set at hhd
        split at hhd
        · cases hhd; rename_i hl; exact ⟨hl, rfl⟩
        · cases hhd
      cases hs1
      exact ih _ _ (by show hd.len = _; omega) (fun _ => by omega) hs2
    · cases hs1
      exact ih _ _ a b hs2

theorem unionRow_room {keep : Bool} {dgs : List (Buf Nat × Buf Nat)} {v : Nat} {st st' : UnionSt} (h : unionRow keep true dgs v st = some st') (hc : 0 < st.cnt → 0 < st.head.len) :
    st'.head.len = st.head.len ∧ (0 < st'.cnt → 0 < st.head.len) := by
  unfold unionRow at h
  have h' : ∃ rm, dgs.foldlM (fun st d => scanRow true d.1 d.2 v v st) { st with rm := rm } = some st' := by
    cases keep with
    | true => exact ⟨_, h⟩
    | false =>
      obtain ⟨rm, -, h⟩ := Option.bind_eq_some_iff.1 h
      exact ⟨rm, h⟩
  obtain ⟨rm, h⟩ := h'
  suffices H : ∀ (l : List (Buf Nat × Buf Nat)) (s s' : UnionSt), s.head.len = st.head.len → (0 < s.cnt → 0 < st.head.len) →
      l.foldlM (fun st d => scanRow true d.1 d.2 v v st) s = some s' → s'.head.len = st.head.len ∧ (0 < s'.cnt → 0 < st.head.len) from H dgs { st with rm := rm } st' rfl hc h
  intro l
  induction l with
  | nil => intro s s' a b hs; cases hs; exact ⟨a, b⟩
  | cons d l ih =>
    intro s s' a b hs
    rw [List.foldlM_cons] at hs
    obtain ⟨s1, hs1, hs2⟩ := Option.bind_eq_some_iff.1 hs
    obtain ⟨c1, c2⟩ := scanRow_room hs1 (by rw [a]; exact b)
    exact ih _ _ (by omega) (by rw [← a]; exact c2) hs2

theorem doUnionDbg_eq {cfg : Cfg} {n : Nat} {inDgs : List Digraph} {rm : Buf Nat} {dgs : List (Buf Nat × Buf Nat)} {tails : Option (List Nat)} {keep write : Bool} {out : Digraph}
    (ha : unionArgsDbg cfg inDgs n = some ()) (ht : write = true → out.tail ≠ none) :
    doUnionDbg cfg inDgs n dgs rm tails keep write out = doUnion cfg n dgs rm tails keep write (ptrBuf out.tail) (ptrBuf out.head) := by
  have hnone : out.head = none → (ptrBuf out.head).len = 0 := fun h => by rw [h]; rfl
  unfold doUnionDbg doUnion
  rw [get_bind ha]
  refine bind_eq_some fun rm' _ => ?_
  cases tails with
  | none =>
    cases write with
    | false => rfl
    | true =>
      dsimp only
      rw [asrt_bind (ht rfl)]
      refine bind_eq_some fun tl _ => ?_
      refine forLt_same (fun _ st => st.head.len = (ptrBuf out.head).len ∧ (0 < st.cnt → 0 < st.head.len)) ⟨rfl, fun h => absurd h (lt_irrefl 0)⟩ ?_
      rintro v st - - ⟨a, b⟩
      constructor
      · refine bind_eq_some fun st' hst' => ?_
        obtain ⟨c1, c2⟩ := unionRow_room hst' b
        refine bind_eq_some fun tl' _ => ?_
        refine asrt_bind ?_
        by_contra hc
        rw [not_or, not_not] at hc
        have := hnone hc.2
        have := c2 (Nat.pos_of_ne_zero hc.1)
        omega
      · intro s' hs'
        obtain ⟨st', hst', hs'⟩ := Option.bind_eq_some_iff.1 hs'
        obtain ⟨tl', -, hs'⟩ := Option.bind_eq_some_iff.1 hs'
        cases hs'
        obtain ⟨c1, c2⟩ := unionRow_room hst' b
        exact ⟨c1.trans a, by rw [c1]; exact c2⟩
  | some ts =>
    cases write with
    | false => rfl
    | true =>
      dsimp only
      rw [asrt_bind (ht rfl)]
      refine bind_eq_some fun tl _ => ?_
      congr 1
      have key : ∀ {v st next p}, unionKeptRow keep dgs v st next = some p → (0 < st.cnt → 0 < st.head.len) →
          p.1.head.len = st.head.len ∧ (0 < p.1.cnt → 0 < st.head.len) := by
        intro v st next p hp b
        unfold unionKeptRow at hp
        cases next with
        | nil => cases hp; exact ⟨rfl, b⟩
        | cons t rest =>
          dsimp only at hp
          split at hp
          · obtain ⟨st', hst', hs'⟩ := Option.bind_eq_some_iff.1 hp
            cases hs'
            exact unionRow_room hst' b
          · cases hp; exact ⟨rfl, b⟩
      refine forLt_same (fun _ s => s.1.head.len = (ptrBuf out.head).len ∧ (0 < s.1.cnt → 0 < s.1.head.len)) ⟨rfl, fun h => absurd h (lt_irrefl 0)⟩ ?_
      rintro v ⟨st, next⟩ - - ⟨a, b⟩
      dsimp only at a b ⊢
      constructor
      · refine bind_eq_some ?_
        rintro ⟨st', next'⟩ hst'
        obtain ⟨c1, c2⟩ := key hst' b
        dsimp only at c1 c2 ⊢
        refine bind_eq_some fun tl' _ => ?_
        refine asrt_bind ?_
        by_contra hc
        rw [not_or, not_not] at hc
        have := hnone hc.2
        have := c2 (Nat.pos_of_ne_zero hc.1)
        omega
      · intro s' hs'
        obtain ⟨⟨st', next'⟩, hst', hs'⟩ := Option.bind_eq_some_iff.1 hs'
        obtain ⟨tl', -, hs'⟩ := Option.bind_eq_some_iff.1 hs'
        cases hs'
        obtain ⟨c1, c2⟩ := key hst' b
        dsimp only at c1 c2 ⊢
        exact ⟨c1.trans a, by rw [c1]; exact c2⟩

theorem Digraph.Storage.tail_ne {cfg : Cfg} {d : Digraph} {n m : Nat} (h : d.Storage cfg n m) : d.tail ≠ none := by
  intro ht
  have := h.tail_len
  rw [ht] at this
  simp [ptrBuf] at this

theorem asrtAllValid_bind {cfg : Cfg} {n : Nat} {inDgs : List Digraph} {rowss : List (Nat → List Nat)} {w : World} {β : Type} {f : Unit → M β}
    (hd : List.Forall₂ (fun d r => d.Repr cfg r ∧ d.n = n) inDgs rowss) (hl : ∀ d ∈ inDgs, ∀ i ∈ d.ids, i ∈ w.live) : (asrtAllValid cfg n inDgs >>= f) w = f () w := by
  induction hd with
  | nil => rfl
  | cons h _ ih =>
    unfold asrtAllValid
    rw [bind_assoc, asrtValid_bind h.1 (hl _ List.mem_cons_self), bind_assoc, asrtM_bind h.2]
    exact ih fun d hd => hl d (List.mem_cons_of_mem _ hd)

theorem unionAndDeleteDbg_eq {cfg : Cfg} {n : Nat} {inDgs : List Digraph} {rowss : List (Nat → List Nat)} {w : World} {tails : Option (List Nat)} (keep : Bool)
    (hne : inDgs ≠ []) (h0 : 0 < n) (hz : n < cfg.sizeMax) (hd : List.Forall₂ (fun d r => d.Repr cfg r ∧ d.n = n) inDgs rowss)
    (hts : ∀ ts, tails = some ts → ts.Pairwise (· < ·) ∧ ∀ t ∈ ts, t < n) (hl : ∀ d ∈ inDgs, ∀ i ∈ d.ids, i ∈ w.live) :
    unionAndDeleteDbg cfg inDgs tails keep w = unionAndDelete cfg inDgs tails keep w := by
  have hids : ∀ i ∈ inDgs.flatMap Digraph.ids, i ∈ w.live := by
    intro i hi
    obtain ⟨d, hd, hi⟩ := List.mem_flatMap.1 hi
    exact hl d hd i hi
  have hcsr : List.Forall₂ (fun d r => Csr n d.1 d.2 r) (inDgs.map fun d => (ptrBuf d.head, ptrBuf d.tail)) rowss := by
    rw [List.forall₂_map_left_iff]
    exact hd.imp fun d r h => h.2 ▸ h.1.csr
  have hhead : ∃ d, inDgs.head? = some d ∧ d.n = n ∧ n ≤ cfg.pointMax := by
    cases hd with
    | nil => contradiction
    | cons h _ => exact ⟨_, rfl, h.2, h.2 ▸ h.1.vertices⟩
  obtain ⟨d0, hd0, hn0, hpm⟩ := hhead
  have hhd : inDgs.head?.map Digraph.n = some n := by rw [hd0]; simp [hn0]
  unfold unionAndDeleteDbg unionAndDelete
  rw [asrtM_bind hne, useK_bind hids hhd, useK_bind hids hhd, asrtAllValid_bind hd hl]
  refine mbind_eq rfl (wpM_useK.2 ⟨hids, (unionGreedy_spec (keep := keep) (tails := tails) hcsr).mono fun a ha => ⟨rfl, ha⟩⟩ : WpM _ w fun a w' => w' = w ∧ _) ?_
  rintro g w' ⟨rfl, hg⟩
  refine mbind_eq rfl wpM_allocE ?_
  rintro (_ | rm) w1 ⟨a1, a2, a3⟩
  · rfl
  dsimp only
  have hrm : rm.buf = Buf.raw n := a3 _ rfl
  have hr : rm.buf.len = n := by rw [hrm]; rfl
  have hargs := unionArgsDbg_eq hne h0 hd hpm
  refine buildDigraphDbg_eq (rows := unionKeptRows keep rowss tails) w'.live (by rw [a2]; rfl) hids h0 hpm hz hg ?_ ?_ ?_ ?_
  · exact doUnion_count keep hcsr hpm hts hr
  · intro oT oH h1 h2
    exact doUnion_write keep hcsr hpm hts hr h1 h2
  · exact doUnionDbg_eq hargs (by simp)
  · intro d m _ hs
    exact doUnionDbg_eq hargs fun _ => hs.tail_ne

theorem digraphDifferenceDbg_eq {cfg : Cfg} {m s : Digraph} {rm rs : Nat → List Nat} {w : World} {mx : Nat}
    (hm : m.Repr cfg rm) (hs : s.Repr cfg rs) (hn : s.n = m.n) (h0 : 0 < m.n) (hmx : 0 < mx) (hml : ∀ i ∈ m.ids, i ∈ w.live) (hsl : ∀ i ∈ s.ids, i ∈ w.live) :
    digraphDifferenceDbg cfg m s mx w = digraphDifference cfg m s mx w := by
  unfold digraphDifferenceDbg digraphDifference
  rw [asrtValid_bind hm hml, asrtValid_bind hs hsl, asrtM_bind h0, asrtM_bind hn.symm, useK_bind hsl (by rw [← hn]; exact hs.csr.total), asrtM_bind, asrtM_bind hmx,
    digraphIsEmptyDbg_eq hm, useK_bind hml (digraphIsEmpty_spec hm), useK_bind hml (digraphIsEmpty_spec hm)]
  swap
  · by_cases h : off rs s.n = 0
    · exact Or.inl h
    · exact Or.inr (hs.head_ne h)
  by_cases he : off rm m.n = 0
  · simp only [he, decide_true, if_true]
  simp only [he, decide_false, Bool.false_eq_true, if_false]
  rw [asrtM_bind (hm.head_ne he)]
  refine mbind_eq rfl wpM_allocE ?_
  rintro (_ | r) w1 ⟨a1, a2, a3⟩
  · rfl
  dsimp only
  rw [asrtM_bind hm.vertices]
  have hr : r.buf.len = m.n := by rw [a3 _ rfl]; rfl
  have hids : ∀ i ∈ r.id :: m.ids ++ s.ids, i ∈ w1.live := by
    intro j hj
    rw [a2]
    simp only [List.cons_append, List.mem_cons, List.mem_append] at hj
    rcases hj with rfl | hj | hj
    · simp
    · exact Multiset.mem_add.2 (Or.inr (hml j hj))
    · exact Multiset.mem_add.2 (Or.inr (hsl j hj))
  refine mbind_eq rfl (wpM_useK.2 ⟨hids, (differenceK_spec (cfg := cfg) (mx := mx) hm.csr (hn ▸ hs.csr) hr hm.vertices).mono fun a ha => ⟨rfl, ha⟩⟩ :
    WpM _ w1 fun a w' => w' = w1 ∧ _) ?_
  rintro ⟨hd, tl, t⟩ w' ⟨rfl, h1, h2, h3, h4⟩
  dsimp only at h1 h2 h3 h4 ⊢
  refine mbind_eq (Q := fun _ w2 => w2.live = w.live) rfl (wpM_freeId w.live a2 fun w3 k1 k2 k3 => k2) ?_
  intro _ w2 hl2
  refine changeArcStorageDbg_eq (hm.storage.refill h3 h4) hm.vertices (t := t) ?_ le_rfl ?_
  · show (ptrBuf (ptrSet m.tail tl)).get m.n = _
    rw [ptrSet_get h4, h2.total, h1]
  · rw [hl2]; simpa [Digraph.ids, ptrIds_ptrSet] using hml

theorem digraphTransposeDbg_eq {cfg : Cfg} {d : Digraph} {rows : Nat → List Nat} {w : World} (h : d.Repr cfg rows) (h0 : 0 < d.n) (hz : d.n < cfg.sizeMax) (hl : ∀ i ∈ d.ids, i ∈ w.live) :
    digraphTransposeDbg cfg d w = digraphTranspose cfg d w := by
  unfold digraphTransposeDbg digraphTranspose
  rw [asrtValid_bind h hl, asrtM_bind h0, useK_bind hl h.csr.total, useK_bind hl h.csr.total]
  refine mbind_eq (emptyDigraphDbg_eq h0 h.vertices hz) (emptyDigraph_spec cfg d.n (off rows d.n) w) ?_
  rintro (e | o) w1 hr
  · rfl
  dsimp only at hr ⊢
  obtain ⟨h1, h2, h3, h4, h5⟩ := hr
  have hl1 : ∀ i ∈ d.ids, i ∈ w1.live := fun i hi => by rw [h2]; exact Multiset.mem_add.2 (Or.inr (hl i hi))
  rw [digraphIsEmptyDbg_eq h, useK_bind hl1 (digraphIsEmpty_spec h), useK_bind hl1 (digraphIsEmpty_spec h)]
  by_cases he : off rows d.n = 0
  · simp only [he, decide_true, if_true]
  simp only [he, decide_false, Bool.false_eq_true, if_false]
  rw [asrtM_bind (h.head_ne he), asrtM_bind (p := o.head ≠ none) (fun hc => he (h4.head_null.2 hc)), asrtM_bind h.vertices]

theorem productArgsDbg_eq {cfg : Cfg} {a b : Digraph} {ra rb : Nat → List Nat} (ha : a.Repr cfg ra) (hb : b.Repr cfg rb) (hn : b.n = a.n) (h0 : 0 < a.n)
    (hae : off ra a.n ≠ 0) (hbe : off rb b.n ≠ 0) : productArgsDbg cfg a b = some () := by
  unfold productArgsDbg
  rw [asrt_bind ha.initialized, asrt_bind hb.initialized, digraphIsEmptyDbg_eq ha, get_bind (digraphIsEmpty_spec ha), asrt_bind (by simpa using hae), digraphIsEmptyDbg_eq hb,
    get_bind (digraphIsEmpty_spec hb), asrt_bind (by simpa using hbe), asrt_bind h0, asrt_bind hn.symm]
  unfold asrt; rw [if_pos ha.vertices]

theorem adjacencyProductDbg_eq {cfg : Cfg} {a b : Digraph} {ra rb : Nat → List Nat} {w : World} (force : Bool)
    (ha : a.Repr cfg ra) (hb : b.Repr cfg rb) (hn : b.n = a.n) (h0 : 0 < a.n) (hz : a.n < cfg.sizeMax) (hae : off ra a.n ≠ 0) (hbe : off rb b.n ≠ 0)
    (hpe : off (productRows force ra rb) a.n ≠ 0) (hal : ∀ i ∈ a.ids, i ∈ w.live) (hbl : ∀ i ∈ b.ids, i ∈ w.live) :
    adjacencyProductDbg cfg a b force w = adjacencyProduct cfg a b force w := by
  have hids : ∀ i ∈ a.ids ++ b.ids, i ∈ w.live := by
    intro i hi; rcases List.mem_append.1 hi with hi | hi
    · exact hal i hi
    · exact hbl i hi
  have hbc : Csr a.n (ptrBuf b.head) (ptrBuf b.tail) rb := hn ▸ hb.csr
  have hargs := productArgsDbg_eq ha hb hn h0 hae hbe
  unfold adjacencyProductDbg adjacencyProduct
  dsimp only
  rw [asrtValid_bind ha hal, asrtValid_bind hb hbl, asrtNonempty_bind ha hae hal, asrtNonempty_bind hb hbe hbl, asrtM_bind h0, asrtM_bind hn.symm]
  refine mbind_eq rfl wpM_allocE ?_
  rintro (_ | rm) w1 ⟨a1, a2, a3⟩
  · rfl
  dsimp only
  have hr : rm.buf.len = a.n := by rw [a3 _ rfl]; rfl
  have hids1 : ∀ i ∈ a.ids ++ b.ids, i ∈ w1.live := fun i hi => by rw [a2]; exact Multiset.mem_add.2 (Or.inr (hids i hi))
  refine mbind_eq rfl (wpM_useK.2 ⟨hids1, (productGreedy_spec force ha.csr hbc).mono fun a ha => ⟨rfl, ha⟩⟩ : WpM _ w1 fun a w' => w' = w1 ∧ _) ?_
  rintro g w' ⟨rfl, hg⟩
  refine buildDigraphDbg_eq (rows := productRows force ra rb) w.live (by rw [a2]; rfl) hids h0 ha.vertices hz hg (doProduct_count force ha.csr hbc ha.vertices hr)
    (fun oT oH h1 h2 => doProduct_write force ha.csr hbc ha.vertices hr h1 h2) ?_ ?_
  · unfold doProductDbg
    rw [get_bind hargs, asrt_bind (by simp), asrt_bind (by simp)]
    rfl
  · intro d m hm hs
    unfold doProductDbg
    rw [get_bind hargs, asrt_bind (fun _ => hs.tail_ne), asrt_bind]
    intro _ hc
    have := hs.head_null.2 hc
    omega

end Scc
