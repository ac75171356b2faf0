/-
The digraph functions including allocation: no undefined behaviour, ownership, results and error codes.
-/
import Verif.Proofs.DigraphTranspose

set_option linter.unusedSimpArgs false
set_option linter.unusedVariables false

namespace Scc

theorem mem_ids_iff_own {d : Digraph} {i : Nat} : i ∈ d.ids ↔ i ∈ d.own := by
  unfold Digraph.ids Digraph.own ptrIds ptrOwn
  rcases d with ⟨n, m, _ | h, _ | t⟩ <;> simp

/-- A failing call: nothing leaked, the error is on record, and its cause is one of the two possible ones. -/
structure ErrPost (w : World) (big : Prop) (e : ErrorCode) (w' : World) : Prop where
  fails : w'.fails = w.fails
  live : w'.live = w.live
  err : w'.err.code = e
  cause : e = .tooLarge ∧ big ∨ e = .noMemory ∧ ¬ w.NoFail

theorem ErrPost.ne_ok {w w' : World} {big : Prop} {e : ErrorCode} (h : ErrPost w big e w') : e ≠ .ok := by
  rcases h.cause with ⟨rfl, -⟩ | ⟨rfl, -⟩ <;> simp

/-- A digraph object with storage for `m` arcs on `n` vertices. -/
structure Digraph.Storage (cfg : Cfg) (d : Digraph) (n m : Nat) : Prop where
  n_eq : d.n = n
  m_eq : d.maxArcs = m
  tail_len : (ptrBuf d.tail).len = n + 1
  head_len : (ptrBuf d.head).len = m
  arcs : m ≤ cfg.arcMax
  arcs_size : m ≤ cfg.sizeMax
  head_null : m = 0 ↔ d.head = none

theorem freeDigraph_spec {d : Digraph} {w : World} {Q : Digraph → World → Prop} (L : Multiset Nat)
    (hl : w.live = d.own + L) (hq : ∀ w', w'.fails = w.fails → w'.live = L → w'.err = w.err → Q Digraph.null w') :
    WpM (freeDigraph d) w Q := by
  unfold freeDigraph
  rw [wpM_bind]
  refine wpM_freePtr (ptrOwn d.tail + L) (by rw [hl, Digraph.own, add_assoc]) fun w1 h1 h2 h3 => ?_
  rw [wpM_bind]
  refine wpM_freePtr L h2 fun w2 k1 k2 k3 => ?_
  rw [wpM_pure]
  exact hq w2 (k1.trans h1) k2 (k3.trans h3)

theorem initDigraph_spec (cfg : Cfg) (n m : Nat) (w : World) :
    WpM (initDigraph cfg n m) w (fun r w' => match r with
      | .error e => ErrPost w (cfg.arcMax < m ∨ cfg.sizeMax < m) e w'
      | .ok d => w'.fails = w.fails ∧ w'.live = d.own + w.live ∧ w'.err = w.err ∧ d.Storage cfg n m) := by
  unfold initDigraph
  split
  · rename_i h
    exact wpM_fail fun w' h1 h2 h3 => ⟨h1, h2, by rw [h3], Or.inl ⟨rfl, h⟩⟩
  · rename_i h
    rw [wpM_bind]
    refine wpM_alloc (fun w' hn h1 h2 h3 => ?_) (fun i w' h1 h2 h3 => ?_)
    · exact wpM_fail fun w2 k1 k2 k3 => ⟨k1.trans h1, k2.trans h2, by rw [k3], Or.inr ⟨rfl, hn⟩⟩
    · dsimp only
      split
      · rename_i hm
        rw [wpM_bind]
        refine wpM_alloc (fun w2 hn k1 k2 k3 => ?_) (fun j w2 k1 k2 k3 => ?_)
        · dsimp only
          rw [wpM_bind]
          refine freeDigraph_spec w.live (by rw [k2, h2]; simp [Digraph.own]) fun w3 l1 l2 l3 => ?_
          refine wpM_fail fun w4 m1 m2 m3 => ⟨by rw [m1, l1, k1, h1], by rw [m2, l2], by rw [m3], Or.inr ⟨rfl, ?_⟩⟩
          intro hc; exact hn (fun i => by rw [h1]; exact hc i)
        · dsimp only
          rw [wpM_pure]
          refine ⟨k1.trans h1, by rw [k2, h2]; simp only [Digraph.own, ptrOwn_some]; abel, k3.trans h3, rfl, rfl, rfl, rfl, by omega, by omega, ?_⟩
          constructor
          · intro h0; omega
          · intro h0; simp at h0
      · rw [wpM_pure]
        refine ⟨h1, by rw [h2]; simp [Digraph.own], h3, rfl, rfl, rfl, ?_, by omega, by omega, ?_⟩
        · show 0 = m; omega
        · simp; omega

theorem emptyDigraph_spec (cfg : Cfg) (n m : Nat) (w : World) :
    WpM (emptyDigraph cfg n m) w (fun r w' => match r with
      | .error e => ErrPost w (cfg.arcMax < m ∨ cfg.sizeMax < m) e w'
      | .ok d => w'.fails = w.fails ∧ w'.live = d.own + w.live ∧ w'.err = w.err ∧ d.Storage cfg n m ∧
          ∀ v, v ≤ n → (ptrBuf d.tail).get v = some 0) := by
  unfold emptyDigraph
  split
  · rename_i h
    exact wpM_fail fun w' h1 h2 h3 => ⟨h1, h2, by rw [h3], Or.inl ⟨rfl, h⟩⟩
  · rename_i h
    rw [wpM_bind]
    refine wpM_alloc (fun w' hn h1 h2 h3 => ?_) (fun i w' h1 h2 h3 => ?_)
    · exact wpM_fail fun w2 k1 k2 k3 => ⟨k1.trans h1, k2.trans h2, by rw [k3], Or.inr ⟨rfl, hn⟩⟩
    · dsimp only
      split
      · rename_i hm
        rw [wpM_bind]
        refine wpM_alloc (fun w2 hn k1 k2 k3 => ?_) (fun j w2 k1 k2 k3 => ?_)
        · dsimp only
          rw [wpM_bind]
          refine freeDigraph_spec w.live (by rw [k2, h2]; simp [Digraph.own]) fun w3 l1 l2 l3 => ?_
          refine wpM_fail fun w4 m1 m2 m3 => ⟨by rw [m1, l1, k1, h1], by rw [m2, l2], by rw [m3], Or.inr ⟨rfl, ?_⟩⟩
          intro hc; exact hn (fun i => by rw [h1]; exact hc i)
        · dsimp only
          rw [wpM_pure]
          refine ⟨k1.trans h1, by rw [k2, h2]; simp only [Digraph.own, ptrOwn_some]; abel, k3.trans h3, ⟨rfl, rfl, rfl, rfl, by omega, by omega, ?_⟩, ?_⟩
          · constructor
            · intro h0; omega
            · intro h0; simp at h0
          · intro v hv; simp [ptrBuf]; omega
      · rw [wpM_pure]
        refine ⟨h1, by rw [h2]; simp [Digraph.own], h3, ⟨rfl, rfl, rfl, ?_, by omega, by omega, ?_⟩, ?_⟩
        · show 0 = m; omega
        · simp; omega
        · intro v hv; simp [ptrBuf]; omega

@[simp] theorem ptrBuf_ptrSet {α : Type} {p : Option (Blk α)} {b : Buf α} (h : b.len = (ptrBuf p).len) (h0 : ∀ i, p = none → b.get i = none) :
    ∀ i, (ptrBuf (ptrSet p b)).get i = b.get i := by
  intro i
  cases p with
  | none => simp [ptrSet, ptrBuf, h0]
  | some blk => rfl

theorem ptrSet_get {α : Type} {p : Option (Blk α)} {b : Buf α} (h : b.len = (ptrBuf p).len) (i : Nat) :
    (ptrBuf (ptrSet p b)).get i = b.get i := by
  cases p with
  | none =>
    have : b.len = 0 := h
    simp [ptrSet, ptrBuf, Buf.get, this]
  | some blk => rfl

theorem ptrSet_len {α : Type} {p : Option (Blk α)} {b : Buf α} (h : b.len = (ptrBuf p).len) :
    (ptrBuf (ptrSet p b)).len = (ptrBuf p).len := by
  cases p with
  | none => rfl
  | some blk => exact h

@[simp] theorem ptrOwn_ptrSet {α : Type} {p : Option (Blk α)} {b : Buf α} : ptrOwn (ptrSet p b) = ptrOwn p := by cases p <;> rfl
@[simp] theorem ptrSet_eq_none {α : Type} {p : Option (Blk α)} {b : Buf α} : ptrSet p b = none ↔ p = none := by cases p <;> simp [ptrSet]

theorem Csr.of_get {n : Nat} {h t h' t' : Buf Nat} {rows : Nat → List Nat} (hc : Csr n h t rows)
    (ht : ∀ v, v ≤ n → t'.get v = t.get v) (hh : ∀ i, i < off rows n → h'.get i = h.get i) : Csr n h' t' rows := by
  refine ⟨fun v hv => by rw [ht v hv]; exact hc.tail_get v hv, fun v hv j a hj => ?_, hc.range⟩
  rw [hh]
  · exact hc.head_get v hv j a hj
  · have hjl : j < (rows v).length := by
      by_contra hx; rw [List.getElem?_eq_none (by omega)] at hj; simp at hj
    have : off rows (v + 1) ≤ off rows n := off_mono (by omega)
    simp only [off] at this; omega

/-- Shrinking the arc storage to exactly the number of arcs. -/
theorem changeArcStorage_spec {cfg : Cfg} {d : Digraph} {n m : Nat} {rows : Nat → List Nat} {w : World} (L : Multiset Nat)
    (hs : d.Storage cfg n m) (hc : Csr n (ptrBuf d.head) (ptrBuf d.tail) rows) (hpm : n ≤ cfg.pointMax) (hle : off rows n ≤ m)
    (hl : w.live = d.own + L) :
    WpM (changeArcStorage cfg d (off rows n)) w (fun r w' => w'.fails = w.fails ∧ w'.live = r.2.own + L ∧ r.2.n = n ∧ r.2.Repr cfg rows ∧
      (r.1 = .ok ∧ r.2.maxArcs = off rows n ∧ w'.err = w.err ∨ r.1 = .noMemory ∧ r.2 = d ∧ w'.err.code = .noMemory ∧ ¬ w.NoFail)) := by
  have hrd : d.Repr cfg rows := ⟨by rw [hs.n_eq]; exact hc, by rw [hs.tail_len, hs.n_eq], by rw [hs.head_len, hs.m_eq],
    by rw [hs.n_eq]; exact hpm, by rw [hs.m_eq]; exact hs.arcs, by rw [hs.m_eq]; exact hs.arcs_size, by rw [hs.m_eq]; exact hs.head_null⟩
  unfold changeArcStorage
  have h1 := hs.arcs
  have h2 := hs.arcs_size
  rw [if_neg (by omega)]
  split
  · rename_i heq
    rw [wpM_pure]
    exact ⟨rfl, hl, hs.n_eq, hrd, Or.inl ⟨rfl, heq, rfl⟩⟩
  · split
    · rename_i h0
      rw [wpM_bind]
      refine wpM_freePtr (ptrOwn d.tail + L) (by rw [hl, Digraph.own, add_assoc]) fun w1 k1 k2 k3 => ?_
      rw [wpM_pure]
      refine ⟨k1, by simp [k2, Digraph.own], hs.n_eq, ⟨?_, ?_, rfl, ?_, by simp, by simp, by simp⟩, Or.inl ⟨rfl, h0.symm, k3⟩⟩
      · rw [hs.n_eq]; exact hc.of_get (fun _ _ => rfl) (fun i hi => by omega)
      · rw [hs.n_eq]; exact hs.tail_len
      · rw [hs.n_eq]; exact hpm
    · rename_i hne h0
      rw [wpM_bind]
      have hhead : ∃ b, d.head = some b := by
        cases hd : d.head with
        | none => exact absurd (hs.head_null.2 hd) (by omega)
        | some b => exact ⟨b, rfl⟩
      obtain ⟨b, hb⟩ := hhead
      rw [hb]
      unfold reallocHead
      refine wpM_realloc (ptrOwn d.tail + L) (by rw [hl, Digraph.own, hb]; simp [add_assoc]) (by omega) (fun w1 hn k1 k2 k3 => ?_) (fun i w1 k1 k2 k3 => ?_)
      · dsimp only
        rw [wpM_bind]
        refine wpM_mkErr fun w2 l1 l2 l3 => ?_
        rw [wpM_pure]
        exact ⟨l1.trans k1, by rw [l2, k2, hl], hs.n_eq, hrd, Or.inr ⟨rfl, rfl, by rw [l3], hn⟩⟩
      · dsimp only
        rw [wpM_pure]
        refine ⟨k1, by rw [k2]; simp [Digraph.own, add_assoc], hs.n_eq, ⟨?_, ?_, rfl, ?_, ?_, ?_, ?_⟩, Or.inl ⟨rfl, rfl, k3⟩⟩
        · rw [hs.n_eq]
          refine hc.of_get (fun _ _ => rfl) (fun i hi => ?_)
          rw [hb]; simp [ptrBuf, Buf.get_resize, hi]
        · rw [hs.n_eq]; exact hs.tail_len
        · rw [hs.n_eq]; exact hpm
        · show off rows n ≤ _; omega
        · show off rows n ≤ _; omega
        · simp; omega

theorem Digraph.Repr.storage {cfg : Cfg} {d : Digraph} {rows : Nat → List Nat} (h : d.Repr cfg rows) : d.Storage cfg d.n d.maxArcs :=
  ⟨rfl, rfl, h.tail_len, h.head_len, h.arcs, h.arcs_size, h.head_null⟩

theorem Digraph.Repr.off_le {cfg : Cfg} {d : Digraph} {rows : Nat → List Nat} (h : d.Repr cfg rows) : off rows d.n ≤ d.maxArcs := by
  by_contra hc
  have hp : Pre (ptrBuf d.head) (allArcs rows d.n) := fun j a hj => allArcs_get h.csr j a hj
  have := hp.len
  rw [length_allArcs, h.head_len] at this
  omega

/-- Result of an operation that changes a digraph in place: the arcs are replaced by `rows`, or, when memory runs out
while shrinking the storage, they are replaced as well but the call reports the failure. -/
structure InPlacePost (cfg : Cfg) (w : World) (L : Multiset Nat) (n : Nat) (rows : Nat → List Nat) (r : ErrorCode × Digraph) (w' : World) : Prop where
  fails : w'.fails = w.fails
  live : w'.live = r.2.own + L
  n_eq : r.2.n = n
  cause : r.1 = .ok ∧ r.2.Repr cfg rows ∧ w'.err = w.err ∨ r.1 = .noMemory ∧ w'.err.code = .noMemory ∧ ¬ w.NoFail ∧ ∃ rows', r.2.Repr cfg rows'

theorem digraphIsEmpty_spec {cfg : Cfg} {d : Digraph} {rows : Nat → List Nat} (h : d.Repr cfg rows) :
    digraphIsEmpty d = some (decide (off rows d.n = 0)) := by
  unfold digraphIsEmpty
  rw [h.csr.total]
  simp [Bool.beq_eq_decide_eq]

theorem rows_nil_of_off {rows : Nat → List Nat} {n : Nat} (h : off rows n = 0) : ∀ v, v < n → rows v = [] := by
  intro v hv
  have : off rows (v + 1) ≤ off rows n := off_mono (by omega)
  simp only [off] at this
  exact List.length_eq_zero_iff.1 (by omega)

theorem Digraph.Repr.congr {cfg : Cfg} {d : Digraph} {r s : Nat → List Nat} (h : d.Repr cfg r) (hrs : ∀ v, v < d.n → r v = s v) : d.Repr cfg s :=
  ⟨h.csr.congr hrs, h.tail_len, h.head_len, h.vertices, h.arcs, h.arcs_size, h.head_null⟩

theorem deleteLoops_spec {cfg : Cfg} {d : Digraph} {rows : Nat → List Nat} {w : World} {L : Multiset Nat}
    (h : d.Repr cfg rows) (hl : w.live = d.own + L) :
    WpM (deleteLoops cfg d) w (InPlacePost cfg w L d.n (noLoopRows rows)) := by
  have hids : ∀ i ∈ d.ids, i ∈ w.live := fun i hi => by rw [hl]; exact Multiset.mem_add.2 (Or.inl (mem_ids_iff_own.1 hi))
  unfold deleteLoops
  rw [wpM_bind, wpM_useK]
  refine ⟨hids, ?_⟩
  rw [wp_eq (digraphIsEmpty_spec h)]
  by_cases he : off rows d.n = 0
  · simp only [he, decide_true, if_true, wpM_pure]
    refine ⟨rfl, hl, rfl, Or.inl ⟨rfl, h.congr fun v hv => ?_, rfl⟩⟩
    rw [noLoopRows, rows_nil_of_off he v hv]; rfl
  · simp only [he, decide_false, Bool.false_eq_true, if_false]
    rw [wpM_bind, wpM_useK]
    refine ⟨hids, ?_⟩
    refine (deleteLoopsK_spec h.csr).mono fun r ⟨h1, h2, h3, h4⟩ => ?_
    rw [h1]
    have hst := h.storage
    have hle : off (noLoopRows rows) d.n ≤ d.maxArcs :=
      (off_le fun u _ => List.length_filter_le _ _).trans h.off_le
    refine (changeArcStorage_spec (d := { d with head := ptrSet d.head r.1, tail := ptrSet d.tail r.2.1 }) (n := d.n) (m := d.maxArcs) (rows := noLoopRows rows) L ⟨rfl, rfl, ?_, ?_, hst.arcs, hst.arcs_size, ?_⟩ ?_ h.vertices hle ?_).mono ?_
    · show (ptrBuf (ptrSet d.tail r.2.1)).len = _
      rw [ptrSet_len h4]; exact h.tail_len
    · show (ptrBuf (ptrSet d.head r.1)).len = _
      rw [ptrSet_len h3]; exact h.head_len
    · show _ ↔ ptrSet d.head r.1 = none
      rw [ptrSet_eq_none]; exact h.head_null
    · exact h2.of_get (fun v _ => ptrSet_get h4 v) (fun i _ => ptrSet_get h3 i)
    · simpa [Digraph.own] using hl
    · rintro r' w' ⟨k1, k2, k3, k4, k5⟩
      refine ⟨k1, k2, k3, ?_⟩
      rcases k5 with ⟨a, b, c⟩ | ⟨a, b, c, e⟩
      · exact Or.inl ⟨a, k4, c⟩
      · exact Or.inr ⟨a, c, e, _, k4⟩

theorem digraphDifference_spec {cfg : Cfg} {m s : Digraph} {rm rs : Nat → List Nat} {w : World} {L : Multiset Nat} {mx : Nat}
    (hm : m.Repr cfg rm) (hs : s.Repr cfg rs) (hn : s.n = m.n) (hl : w.live = m.own + L) (hsl : ∀ i ∈ s.ids, i ∈ L) :
    WpM (digraphDifference cfg m s mx) w (InPlacePost cfg w L m.n (differenceRows rm rs mx)) := by
  have hids : ∀ i ∈ m.ids, i ∈ w.live := fun i hi => by rw [hl]; exact Multiset.mem_add.2 (Or.inl (mem_ids_iff_own.1 hi))
  have hids' : ∀ i ∈ s.ids, i ∈ w.live := fun i hi => by rw [hl]; exact Multiset.mem_add.2 (Or.inr (hsl i hi))
  unfold digraphDifference
  rw [wpM_bind, wpM_useK]
  refine ⟨hids, ?_⟩
  rw [wp_eq (digraphIsEmpty_spec hm)]
  by_cases he : off rm m.n = 0
  · simp only [he, decide_true, if_true, wpM_pure]
    refine ⟨rfl, hl, rfl, Or.inl ⟨rfl, hm.congr fun v hv => ?_, rfl⟩⟩
    rw [differenceRows, rows_nil_of_off he v hv]; simp
  · simp only [he, decide_false, Bool.false_eq_true, if_false]
    rw [wpM_bind]
    refine wpM_alloc (fun w1 hf k1 k2 k3 => ?_) (fun i w1 k1 k2 k3 => ?_)
    · dsimp only
      rw [wpM_bind]
      refine wpM_mkErr fun w2 l1 l2 l3 => ?_
      rw [wpM_pure]
      exact ⟨l1.trans k1, by rw [l2, k2, hl], rfl, Or.inr ⟨rfl, by rw [l3], hf, _, hm⟩⟩
    · dsimp only
      rw [wpM_bind, wpM_useK]
      refine ⟨?_, ?_⟩
      · intro j hj
        rw [k2]
        simp only [List.cons_append, List.mem_cons, List.mem_append] at hj
        rcases hj with rfl | hj | hj
        · simp
        · exact Multiset.mem_add.2 (Or.inr (hids j hj))
        · exact Multiset.mem_add.2 (Or.inr (hids' j hj))
      refine (differenceK_spec (cfg := cfg) (mx := mx) hm.csr (hn ▸ hs.csr) (show (Buf.raw m.n).len = m.n from rfl) hm.vertices).mono
        fun r ⟨h1, h2, h3, h4⟩ => ?_
      rw [wpM_bind]
      refine wpM_freeId w.live k2 fun w2 l1 l2 l3 => ?_
      rw [h1]
      have hst := hm.storage
      have hle : off (differenceRows rm rs mx) m.n ≤ m.maxArcs :=
        (off_le fun u _ => (List.length_take_le' _ _).trans (List.length_filter_le _ _)).trans hm.off_le
      refine (changeArcStorage_spec (d := { m with head := ptrSet m.head r.1, tail := ptrSet m.tail r.2.1 }) (n := m.n) (m := m.maxArcs) (rows := differenceRows rm rs mx) L ⟨rfl, rfl, ?_, ?_, hst.arcs, hst.arcs_size, ?_⟩ ?_ hm.vertices hle ?_).mono ?_
      · show (ptrBuf (ptrSet m.tail r.2.1)).len = _
        rw [ptrSet_len h4]; exact hm.tail_len
      · show (ptrBuf (ptrSet m.head r.1)).len = _
        rw [ptrSet_len h3]; exact hm.head_len
      · show _ ↔ ptrSet m.head r.1 = none
        rw [ptrSet_eq_none]; exact hm.head_null
      · exact h2.of_get (fun v _ => ptrSet_get h4 v) (fun i _ => ptrSet_get h3 i)
      · simpa [Digraph.own, l2] using hl
      · rintro r' w' ⟨q1, q2, q3, q4, q5⟩
        refine ⟨by rw [q1, l1, k1], q2, q3, ?_⟩
        rcases q5 with ⟨a, b, c⟩ | ⟨a, b, c, e⟩
        · exact Or.inl ⟨a, q4, by rw [c, l3, k3]⟩
        · refine Or.inr ⟨a, c, ?_, _, q4⟩
          intro hnf; exact e (fun i => by rw [l1, k1]; exact hnf i)

/-- Result of an operation that builds a new digraph. -/
def NewPost (cfg : Cfg) (w : World) (n : Nat) (rows : Nat → List Nat) (r : Except ErrorCode Digraph) (w' : World) : Prop :=
  match r with
  | .error e => ErrPost w (cfg.arcMax < off rows n ∨ cfg.sizeMax < off rows n) e w'
  | .ok d => w'.fails = w.fails ∧ w'.live = d.own + w.live ∧ d.n = n ∧ d.Repr cfg rows ∧ d.maxArcs = off rows n ∧
      (w'.err = w.err ∨ w'.err = ErrInfo.none)

theorem digraphTranspose_spec {cfg : Cfg} {d : Digraph} {rows : Nat → List Nat} {w : World}
    (h : d.Repr cfg rows) (hl : ∀ i ∈ d.ids, i ∈ w.live) :
    WpM (digraphTranspose cfg d) w (NewPost cfg w d.n (transposeRows rows d.n)) := by
  have hoff : off (transposeRows rows d.n) d.n = off rows d.n := off_transposeRows h.csr.range
  unfold digraphTranspose
  rw [wpM_bind, wpM_useK]
  refine ⟨hl, ?_⟩
  rw [wp_eq h.csr.total, wpM_bind]
  refine (emptyDigraph_spec cfg d.n (off rows d.n) w).mono fun r w1 hr => ?_
  cases r with
  | error e =>
    dsimp only at hr ⊢
    rw [wpM_pure]
    unfold NewPost
    dsimp only
    rw [hoff]; exact hr
  | ok o =>
    dsimp only at hr ⊢
    obtain ⟨h1, h2, h3, h4, h5⟩ := hr
    have hl1 : ∀ i ∈ d.ids, i ∈ w1.live := fun i hi => by rw [h2]; exact Multiset.mem_add.2 (Or.inr (hl i hi))
    rw [wpM_bind, wpM_useK]
    refine ⟨hl1, ?_⟩
    rw [wp_eq (digraphIsEmpty_spec h)]
    have mkRepr : ∀ hb tb : Buf Nat, hb.len = (ptrBuf o.head).len → tb.len = (ptrBuf o.tail).len →
        Csr d.n hb tb (transposeRows rows d.n) →
        ({ o with head := ptrSet o.head hb, tail := ptrSet o.tail tb } : Digraph).Repr cfg (transposeRows rows d.n) := by
      intro hb tb e1 e2 hc
      refine ⟨?_, ?_, ?_, ?_, ?_, ?_, ?_⟩
      · show Csr o.n _ _ _
        rw [h4.n_eq]; exact hc.of_get (fun v _ => ptrSet_get e2 v) (fun i _ => ptrSet_get e1 i)
      · show (ptrBuf (ptrSet o.tail tb)).len = o.n + 1
        rw [ptrSet_len e2, h4.tail_len, h4.n_eq]
      · show (ptrBuf (ptrSet o.head hb)).len = o.maxArcs
        rw [ptrSet_len e1, h4.head_len, h4.m_eq]
      · show o.n ≤ _; rw [h4.n_eq]; exact h.vertices
      · show o.maxArcs ≤ _; rw [h4.m_eq]; exact h4.arcs
      · show o.maxArcs ≤ _; rw [h4.m_eq]; exact h4.arcs_size
      · show o.maxArcs = 0 ↔ ptrSet o.head hb = none
        rw [ptrSet_eq_none, h4.m_eq]; exact h4.head_null
    by_cases he : off rows d.n = 0
    · simp only [he, decide_true, if_true, wpM_pure]
      refine ⟨h1, h2, h4.n_eq, ?_, by rw [h4.m_eq, hoff], Or.inl h3⟩
      have hz : ∀ v, v < d.n → transposeRows rows d.n v = [] := rows_nil_of_off (by rw [hoff, he])
      refine ⟨?_, by rw [h4.tail_len, h4.n_eq], by rw [h4.head_len, h4.m_eq], by rw [h4.n_eq]; exact h.vertices, by rw [h4.m_eq]; exact h4.arcs,
        by rw [h4.m_eq]; exact h4.arcs_size, by rw [h4.m_eq]; exact h4.head_null⟩
      rw [h4.n_eq]
      refine ⟨fun v hv => ?_, fun v hv j a hj => ?_, fun v hv a ha => ?_⟩
      · rw [h5 v hv, off_nil (fun u hu => hz u (by omega))]
      · rw [hz v hv] at hj; simp at hj
      · rw [hz v hv] at ha; simp at ha
    · simp only [he, decide_false, Bool.false_eq_true, if_false]
      rw [wpM_bind, wpM_useK]
      refine ⟨?_, ?_⟩
      · intro i hi
        rcases List.mem_append.1 hi with hi | hi
        · exact hl1 i hi
        · rw [h2]; exact Multiset.mem_add.2 (Or.inl (mem_ids_iff_own.1 hi))
      refine (transposeK_spec h.csr h5 h4.tail_len h4.head_len).mono fun r ⟨k1, k2, k3⟩ => ?_
      rw [wpM_pure]
      exact ⟨h1, by simpa [Digraph.own] using h2, h4.n_eq, mkRepr _ _ k2 k3 k1, by show o.maxArcs = _; rw [h4.m_eq, hoff], Or.inl h3⟩

/-- The common skeleton of union and product: allocate greedily or exactly, fill, shrink. -/
theorem buildDigraph_spec {cfg : Cfg} {n : Nat} {rows : Nat → List Nat} {w0 w : World} {rmId : Nat} {ids : List Nat} {greedy : Nat}
    (count : Option UnionSt) (write : Buf Nat → Buf Nat → Option UnionSt)
    (hf : w.fails = w0.fails) (hlive : w.live = {rmId} + w0.live) (herr : w.err = w0.err ∨ w.err = ErrInfo.none)
    (hids : ∀ i ∈ ids, i ∈ w0.live) (hpm : n ≤ cfg.pointMax) (hg : off rows n ≤ greedy)
    (hcount : Wp count (fun st => st.cnt = off rows n))
    (hwrite : ∀ oT oH : Buf Nat, oT.len = n + 1 → off rows n ≤ oH.len → Wp (write oT oH) (fun st =>
      st.cnt = off rows n ∧ Csr n st.head st.tail rows ∧ st.head.len = oH.len ∧ st.tail.len = oT.len)) :
    WpM (buildDigraph cfg n greedy rmId ids count write) w (NewPost cfg w0 n rows) := by
  have hnf : w.NoFail ↔ w0.NoFail := by unfold World.NoFail; rw [hf]
  -- after the second attempt
  have mid : WpM (allocOutput cfg n greedy rmId ids count) w (fun r w2 => match r with
      | .error e => ErrPost w (cfg.arcMax < off rows n ∨ cfg.sizeMax < off rows n) e w2
      | .ok d => w2.fails = w.fails ∧ w2.live = d.own + w.live ∧ (w2.err = w0.err ∨ w2.err = ErrInfo.none) ∧ ∃ m, off rows n ≤ m ∧ d.Storage cfg n m) := by
    unfold allocOutput
    rw [wpM_bind]
    refine (initDigraph_spec cfg n greedy w).mono fun r w1 hr => ?_
    cases r with
    | ok d =>
      dsimp only at hr ⊢
      rw [wpM_pure]
      obtain ⟨h1, h2, h3, h4⟩ := hr
      exact ⟨h1, h2, by rw [h3]; exact herr, _, hg, h4⟩
    | error e =>
      dsimp only at hr ⊢
      rw [wpM_bind]
      refine wpM_resetErr fun w2 k1 k2 k3 => ?_
      rw [wpM_bind, wpM_useK]
      refine ⟨?_, ?_⟩
      · intro i hi
        rw [k2, hr.live, hlive]
        rcases List.mem_cons.1 hi with rfl | hi
        · simp
        · exact Multiset.mem_add.2 (Or.inr (hids i hi))
      refine hcount.mono fun st hst => ?_
      rw [hst]
      refine (initDigraph_spec cfg n (off rows n) w2).mono fun r w3 hr3 => ?_
      cases r with
      | error e' =>
        dsimp only at hr3 ⊢
        refine ⟨by rw [hr3.fails, k1, hr.fails], by rw [hr3.live, k2, hr.live], hr3.err, ?_⟩
        rcases hr3.cause with h | ⟨h, h'⟩
        · exact Or.inl h
        · refine Or.inr ⟨h, fun hn => h' fun i => ?_⟩
          rw [k1, hr.fails]; exact hn i
      | ok d =>
        dsimp only at hr3 ⊢
        obtain ⟨h1, h2, h3, h4⟩ := hr3
        exact ⟨by rw [h1, k1, hr.fails], by rw [h2, k2, hr.live], Or.inr (by rw [h3, k3]), _, le_rfl, h4⟩
  unfold buildDigraph
  rw [wpM_bind]
  refine mid.mono fun r w2 hr2 => ?_
  cases r with
  | error e =>
    dsimp only at hr2 ⊢
    rw [wpM_bind]
    refine wpM_freeId w0.live (by rw [hr2.live, hlive]) fun w3 k1 k2 k3 => ?_
    rw [wpM_pure]
    refine ⟨by rw [k1, hr2.fails, hf], k2, by rw [k3]; exact hr2.err, ?_⟩
    rw [← hnf]; exact hr2.cause
  | ok d =>
    dsimp only at hr2 ⊢
    obtain ⟨h1, h2, h3, m, hm, hs⟩ := hr2
    rw [wpM_bind, wpM_useK]
    refine ⟨?_, ?_⟩
    · intro i hi
      rw [h2, hlive]
      simp only [List.cons_append, List.mem_cons, List.mem_append] at hi
      rcases hi with rfl | hi | hi
      · simp
      · exact Multiset.mem_add.2 (Or.inl (mem_ids_iff_own.1 hi))
      · exact Multiset.mem_add.2 (Or.inr (Multiset.mem_add.2 (Or.inr (hids i hi))))
    refine (hwrite _ _ hs.tail_len (by rw [hs.head_len]; exact hm)).mono fun st ⟨g1, g2, g3, g4⟩ => ?_
    rw [wpM_bind]
    refine wpM_freeId (d.own + w0.live) (by rw [h2, hlive]; ac_rfl) fun w3 k1 k2 k3 => ?_
    rw [g1, wpM_bind]
    refine (changeArcStorage_spec (d := { d with head := ptrSet d.head st.head, tail := ptrSet d.tail st.tail }) (n := n) (m := m) (rows := rows) w0.live ⟨hs.n_eq, hs.m_eq, ?_, ?_, hs.arcs, hs.arcs_size, ?_⟩ ?_ hpm hm ?_).mono ?_
    · show (ptrBuf (ptrSet d.tail st.tail)).len = _
      rw [ptrSet_len g4]; exact hs.tail_len
    · show (ptrBuf (ptrSet d.head st.head)).len = _
      rw [ptrSet_len g3]; exact hs.head_len
    · show _ ↔ ptrSet d.head st.head = none
      rw [ptrSet_eq_none]; exact hs.head_null
    · exact g2.of_get (fun v _ => ptrSet_get g4 v) (fun i _ => ptrSet_get g3 i)
    · simpa [Digraph.own] using k2
    · rintro ⟨ec, d'⟩ w4 ⟨q1, q2, q3, q4, q5⟩
      dsimp only at q2 q3 q4 q5 ⊢
      rcases q5 with ⟨rfl, b, c⟩ | ⟨rfl, b, c, e⟩
      · simp only [ne_eq, not_true, if_false, wpM_pure]
        exact ⟨by rw [q1, k1, h1, hf], q2, q3, q4, b, by rw [c, k3]; exact h3⟩
      · simp only [ne_eq, reduceCtorEq, not_false_eq_true, if_true]
        rw [wpM_bind]
        refine freeDigraph_spec w0.live q2 fun w5 l1 l2 l3 => ?_
        rw [wpM_pure]
        refine ⟨by rw [l1, q1, k1, h1, hf], l2, by rw [l3, c], Or.inr ⟨rfl, fun hn => e fun i => ?_⟩⟩
        rw [k1, h1, hf]; exact hn i

theorem adjacencyProduct_spec {cfg : Cfg} {a b : Digraph} {ra rb : Nat → List Nat} {w : World} (force : Bool)
    (ha : a.Repr cfg ra) (hb : b.Repr cfg rb) (hn : b.n = a.n) (hal : ∀ i ∈ a.ids, i ∈ w.live) (hbl : ∀ i ∈ b.ids, i ∈ w.live) :
    WpM (adjacencyProduct cfg a b force) w (NewPost cfg w a.n (productRows force ra rb)) := by
  have hids : ∀ i ∈ a.ids ++ b.ids, i ∈ w.live := by
    intro i hi; rcases List.mem_append.1 hi with hi | hi
    · exact hal i hi
    · exact hbl i hi
  have hbc : Csr a.n (ptrBuf b.head) (ptrBuf b.tail) rb := hn ▸ hb.csr
  unfold adjacencyProduct
  dsimp only
  rw [wpM_bind]
  refine wpM_alloc (fun w1 hf k1 k2 k3 => ?_) (fun i w1 k1 k2 k3 => ?_)
  · exact wpM_fail fun w2 l1 l2 l3 => ⟨l1.trans k1, l2.trans k2, by rw [l3], Or.inr ⟨rfl, hf⟩⟩
  · dsimp only
    rw [wpM_bind, wpM_useK]
    refine ⟨fun j hj => by rw [k2]; exact Multiset.mem_add.2 (Or.inr (hids j hj)), ?_⟩
    refine (productGreedy_spec force ha.csr hbc).mono fun g hg => ?_
    exact buildDigraph_spec (w0 := w) (w := w1) (rmId := i) (ids := a.ids ++ b.ids) (rows := productRows force ra rb) _
      (fun oT oH => doProduct cfg a.n (ptrBuf a.head) (ptrBuf a.tail) (ptrBuf b.head) (ptrBuf b.tail) (Buf.raw a.n) force true oT oH)
      k1 k2 (Or.inl k3) hids ha.vertices hg (doProduct_count force ha.csr hbc ha.vertices rfl)
      (fun oT oH h1 h2 => doProduct_write force ha.csr hbc ha.vertices rfl h1 h2)

theorem unionGreedy_spec {n : Nat} {dgs : List (Buf Nat × Buf Nat)} {rowss : List (Nat → List Nat)} {keep : Bool} {tails : Option (List Nat)}
    (hd : List.Forall₂ (fun d r => Csr n d.1 d.2 r) dgs rowss) :
    Wp (unionGreedy n dgs) (fun c => off (unionKeptRows keep rowss tails) n ≤ c) := by
  have hsum : Wp (unionGreedy n dgs) (fun c => c = (rowss.map fun r => off r n).sum) := by
    unfold unionGreedy
    suffices H : ∀ c0, Wp (dgs.foldlM (fun c d => do let m ← d.2.get n; pure (c + m)) c0) (fun c => c = c0 + (rowss.map fun r => off r n).sum) by
      simpa using H 0
    induction hd with
    | nil => intro c0; simp
    | cons h _ ih =>
      intro c0
      rw [List.foldlM_cons, wp_bind, wp_bind, wp_eq h.total, wp_pure]
      refine (ih _).mono fun c hc => ?_
      rw [hc]; simp; omega
  refine hsum.mono fun c hc => ?_
  subst hc
  have h1 : off (unionKeptRows keep rowss tails) n ≤ off (fun v => rowss.flatMap fun r => r v) n := by
    refine off_le fun v _ => ?_
    unfold unionKeptRows
    split
    · exact firstOcc_length_le
    · simp
  refine h1.trans (le_of_eq ?_)
  clear h1 hsum hd
  induction rowss with
  | nil => simp [off_nil]
  | cons r rs ih =>
    rw [off_add (s := r) (t := fun v => rs.flatMap fun r => r v) (fun v _ => by simp), ih]
    simp

theorem unionAndDelete_spec {cfg : Cfg} {n : Nat} {inDgs : List Digraph} {rowss : List (Nat → List Nat)} {w : World} {tails : Option (List Nat)} (keep : Bool)
    (hne : inDgs ≠ []) (hd : List.Forall₂ (fun d r => d.Repr cfg r ∧ d.n = n) inDgs rowss)
    (hts : ∀ ts, tails = some ts → ts.Pairwise (· < ·) ∧ ∀ t ∈ ts, t < n) (hl : ∀ d ∈ inDgs, ∀ i ∈ d.ids, i ∈ w.live) :
    WpM (unionAndDelete cfg inDgs tails keep) w (NewPost cfg w n (unionKeptRows keep rowss tails)) := by
  have hids : ∀ i ∈ inDgs.flatMap Digraph.ids, i ∈ w.live := by
    intro i hi
    obtain ⟨d, hd, hi⟩ := List.mem_flatMap.1 hi
    exact hl d hd i hi
  have hcsr : List.Forall₂ (fun d r => Csr n d.1 d.2 r) (inDgs.map fun d => (ptrBuf d.head, ptrBuf d.tail)) rowss := by
    rw [List.forall₂_map_left_iff]
    exact hd.imp fun d r h => h.2 ▸ h.1.csr
  have hhead : ∃ d, inDgs.head? = some d ∧ d.n = n ∧ n ≤ cfg.pointMax := by
    cases hd with
    | nil => contradiction
    | cons h _ => exact ⟨_, rfl, h.2, h.2 ▸ h.1.vertices⟩
  obtain ⟨d0, hd0, hn0, hpm⟩ := hhead
  unfold unionAndDelete
  dsimp only
  rw [wpM_bind, wpM_useK, hd0]
  refine ⟨hids, ?_⟩
  simp only [Option.map_some, wp_some]
  rw [hn0, wpM_bind, wpM_useK]
  refine ⟨hids, ?_⟩
  refine (unionGreedy_spec (keep := keep) (tails := tails) hcsr).mono fun g hg => ?_
  rw [wpM_bind]
  refine wpM_alloc (fun w1 hf k1 k2 k3 => ?_) (fun i w1 k1 k2 k3 => ?_)
  · exact wpM_fail fun w2 l1 l2 l3 => ⟨l1.trans k1, l2.trans k2, by rw [l3], Or.inr ⟨rfl, hf⟩⟩
  · dsimp only
    have hr : (Buf.raw n : Buf Nat).len = n := rfl
    refine buildDigraph_spec (w0 := w) (w := w1) (rmId := i) (ids := inDgs.flatMap Digraph.ids) (rows := unionKeptRows keep rowss tails) _ _
      k1 k2 (Or.inl k3) hids hpm hg ?_ ?_
    · exact doUnion_count keep hcsr hpm hts hr
    · intro oT oH h1 h2
      exact doUnion_write keep hcsr hpm hts hr h1 h2

end Scc
