/-
The built-in distance search meets its specification.
-/
import Verif.Spec.Spi
import Mathlib.Tactic.Ring
import Mathlib.Data.List.Induction

namespace Scc

variable {F : Type} [FloatOps F]

/-! ### Distances -/

theorem sqDist_eq {ds : DataSet F} (h : ds.Complete) {i j : Nat} (hi : i < ds.n) (hj : j < ds.n) : sqDist ds i j = some (ds.sqd i j) := by
  have key : ∀ i, i < ds.n → ∀ t, t < ds.dims → ds.buf.get (i * ds.dims + t) = some (ds.coord i t) := by
    intro i hi t ht
    obtain ⟨x, hx⟩ := h (i * ds.dims + t) (by
      calc i * ds.dims + t < i * ds.dims + ds.dims := by omega
        _ = (i + 1) * ds.dims := by ring
        _ ≤ ds.n * ds.dims := Nat.mul_le_mul_right _ hi)
    rw [DataSet.coord, hx]; rfl
  unfold sqDist DataSet.sqd forNe
  rw [if_pos (Nat.zero_le _), Nat.sub_zero, ← List.range_eq_range']
  have : ∀ (l : List Nat) (acc : F), (∀ t ∈ l, t < ds.dims) →
      l.foldlM (fun acc t => do
        let a ← ds.buf.get (i * ds.dims + t)
        let b ← ds.buf.get (j * ds.dims + t)
        let d := FloatOps.sub a b
        pure (FloatOps.add acc (FloatOps.mul d d))) acc =
      some (l.foldl (fun acc t => FloatOps.add acc
        (FloatOps.mul (FloatOps.sub (ds.coord i t) (ds.coord j t)) (FloatOps.sub (ds.coord i t) (ds.coord j t)))) acc) := by
    intro l
    induction l with
    | nil => intro acc _; rfl
    | cons t l ih =>
      intro acc hl
      rw [List.foldlM_cons, List.foldl_cons, key i hi t (hl t (by simp)), key j hj t (hl t (by simp))]
      exact ih _ fun t ht => hl t (by simp [ht])
  exact this _ _ fun t ht => by simpa using ht

theorem ArrHolds.get {a : Option Arr} {L : List Nat} (h : ArrHolds a L) {i x : Nat} (hx : L[i]? = some x) : idxGet a i = some x := by
  cases a with
  | some a => exact h i x hx
  | none =>
    have hi : i < L.length := by
      by_contra hc; rw [List.getElem?_eq_none (by omega)] at hx; cases hx
    have h' : L = List.range L.length := h
    rw [h', List.getElem?_range hi] at hx
    exact hx

/-! ### Insertion -/

theorem length_insertFar (x : F × Nat) (l : List (F × Nat)) : (insertFar x l).length = l.length + 1 := by
  induction l with
  | nil => rfl
  | cons y ys ih => unfold insertFar; split <;> simp [ih]

theorem perm_insertFar (x : F × Nat) (l : List (F × Nat)) : (insertFar x l).Perm (x :: l) := by
  induction l with
  | nil => exact List.Perm.refl _
  | cons y ys ih =>
    unfold insertFar; split
    · exact (ih.cons y).trans (List.Perm.swap x y ys)
    · exact List.Perm.refl _

/-- The lists `dl` and `il` (from `base` on) hold the entries `acc`, nearest first. -/
def Lists (dl : Buf F) (il : Buf Nat) (base : Nat) (acc : List (F × Nat)) : Prop :=
  ∀ (i : Nat) (p : F × Nat), acc.reverse[i]? = some p → dl.get i = some p.1 ∧ il.get (base + i) = some p.2

theorem Lists.tail {dl : Buf F} {il : Buf Nat} {base : Nat} {y : F × Nat} {ys : List (F × Nat)} (h : Lists dl il base (y :: ys)) : Lists dl il base ys := by
  intro i p hp
  refine h i p ?_
  have hi : i < ys.reverse.length := by
    by_contra hc; rw [List.getElem?_eq_none (by omega)] at hp; cases hp
  rw [List.reverse_cons, List.getElem?_append_left hi]; exact hp

theorem Lists.head {dl : Buf F} {il : Buf Nat} {base : Nat} {y : F × Nat} {ys : List (F × Nat)} (h : Lists dl il base (y :: ys)) :
    dl.get ys.length = some y.1 ∧ il.get (base + ys.length) = some y.2 := by
  refine h ys.length y ?_
  rw [List.reverse_cons, List.getElem?_append_right (by simp)]; simp

theorem lists_snoc {dl : Buf F} {il : Buf Nat} {base : Nat} {y : F × Nat} {ys : List (F × Nat)} (h : Lists dl il base ys)
    (h1 : dl.get ys.length = some y.1) (h2 : il.get (base + ys.length) = some y.2) : Lists dl il base (y :: ys) := by
  intro i p hp
  rw [List.reverse_cons] at hp
  by_cases hi : i < ys.length
  · rw [List.getElem?_append_left (by simpa using hi)] at hp; exact h i p hp
  · rw [List.getElem?_append_right (by simpa using Nat.le_of_not_lt hi)] at hp
    simp only [List.length_reverse] at hp
    have h0 : i - ys.length = 0 := by
      by_contra hc
      rw [List.getElem?_eq_none (by simp; omega)] at hp; cases hp
    rw [h0] at hp; simp at hp; subst hp
    have : i = ys.length := by omega
    subst this; exact ⟨h1, h2⟩

/-- Frame of an operation on the lists that touches the positions below `m` only. -/
structure Frame (dl : Buf F) (il : Buf Nat) (base m : Nat) (dl' : Buf F) (il' : Buf Nat) : Prop where
  dlen : dl'.len = dl.len
  ilen : il'.len = il.len
  dget : ∀ i, m ≤ i → dl'.get i = dl.get i
  iget : ∀ i, i < base ∨ base + m ≤ i → il'.get i = il.get i

theorem Frame.refl {dl : Buf F} {il : Buf Nat} {base m : Nat} : Frame dl il base m dl il := ⟨rfl, rfl, fun _ _ => rfl, fun _ _ => rfl⟩

theorem Frame.trans {dl dl' dl'' : Buf F} {il il' il'' : Buf Nat} {base m m' : Nat} (h : Frame dl il base m dl' il') (h' : Frame dl' il' base m' dl'' il'')
    {M : Nat} (h1 : m ≤ M) (h2 : m' ≤ M) : Frame dl il base M dl'' il'' :=
  ⟨h'.dlen.trans h.dlen, h'.ilen.trans h.ilen, fun i hi => (h'.dget i (by omega)).trans (h.dget i (by omega)),
    fun i hi => (h'.iget i (by omega)).trans (h.iget i (by omega))⟩

theorem addDist_spec (add : F) (ix base : Nat) (acc : List (F × Nat)) (dl : Buf F) (il : Buf Nat) (h : Lists dl il base acc) (hd : acc.length < dl.len)
    (hi : base + acc.length < il.len) :
    Wp (addDist add ix base acc.length dl il) fun r => Lists r.1 r.2 base (insertFar (add, ix) acc) ∧ Frame dl il base (acc.length + 1) r.1 r.2 := by
  induction acc generalizing dl il with
  | nil =>
    simp only [List.length_nil] at hd hi ⊢
    simp only [addDist, wp_bind, Buf.wp_set, wp_pure, insertFar]
    refine ⟨hd, hi, ?_, rfl, rfl, fun i hi => ?_, fun i hi => ?_⟩
    · refine lists_snoc (ys := []) (fun i p hp => by simp at hp) ?_ ?_
      · simp [hd]
      · simp only [List.length_nil, Nat.add_zero]; exact Buf.get_upd_self _ _ hi
    · exact Buf.get_upd_ne _ _ (by omega)
    · exact Buf.get_upd_ne _ _ (by omega)
  | cons y ys ih =>
    simp only [List.length_cons] at hd hi ⊢
    rw [addDist]
    obtain ⟨g1, g2⟩ := h.head
    rw [wp_bind, wp_eq g1]
    simp only [insertFar]
    split
    · rename_i hlt
      simp only [wp_bind, Buf.wp_set]
      refine ⟨hd, ?_⟩
      rw [wp_eq g2]
      refine ⟨hi, ?_⟩
      have hl : Lists (dl.upd (ys.length + 1) y.1) (il.upd (base + (ys.length + 1)) y.2) base ys := by
        intro i p hp
        have hil : i < ys.length := by
          by_contra hc; rw [List.getElem?_eq_none (by simp; omega)] at hp; cases hp
        obtain ⟨a, b⟩ := h.tail i p hp
        exact ⟨by rw [Buf.get_upd_ne _ _ (by omega)]; exact a, by rw [Buf.get_upd_ne _ _ (by omega)]; exact b⟩
      refine (ih _ _ hl (by simp; omega) (by simp; omega)).mono ?_
      rintro ⟨dl', il'⟩ ⟨h1, h2⟩
      refine ⟨?_, ?_⟩
      · refine lists_snoc h1 ?_ ?_
        · rw [length_insertFar, h2.dget _ le_rfl]; exact Buf.get_upd_self _ _ hd
        · rw [length_insertFar, h2.iget _ (Or.inr (by omega))]; exact Buf.get_upd_self _ _ hi
      · refine ⟨h2.dlen, h2.ilen, fun i hi' => ?_, fun i hi' => ?_⟩
        · rw [h2.dget i (by omega)]; exact Buf.get_upd_ne _ _ (by omega)
        · rw [h2.iget i (by omega)]; exact Buf.get_upd_ne _ _ (by omega)
    · rename_i hlt
      simp only [wp_bind, Buf.wp_set, wp_pure]
      refine ⟨hd, hi, ?_, rfl, rfl, fun i hi' => Buf.get_upd_ne _ _ (by omega), fun i hi' => Buf.get_upd_ne _ _ (by omega)⟩
      refine lists_snoc (ys := y :: ys) ?_ (Buf.get_upd_self _ _ hd) (Buf.get_upd_self _ _ hi)
      intro i p hp
      have hil : i < ys.length + 1 := by
        by_contra hc; rw [List.getElem?_eq_none (by simp; omega)] at hp; cases hp
      obtain ⟨a, b⟩ := h i p hp
      exact ⟨by rw [Buf.get_upd_ne _ _ (by omega)]; exact a, by rw [Buf.get_upd_ne _ _ (by omega)]; exact b⟩

/-! ### One query -/

/-- The candidates for a query with their squared distances. -/
def cands (ds : DataSet F) (q : Nat) (L : List Nat) : List (F × Nat) := L.map fun j => (ds.sqd q j, j)

theorem length_keepNear (acc : List (F × Nat)) (x : F × Nat) : (keepNear acc x).length = acc.length := by
  cases acc with
  | nil => rfl
  | cons y ys => unfold keepNear; dsimp only; split <;> simp [length_insertFar]

theorem length_foldl_keepNear (l acc : List (F × Nat)) : (l.foldl keepNear acc).length = acc.length := by
  induction l generalizing acc with
  | nil => rfl
  | cons x l ih => rw [List.foldl_cons, ih, length_keepNear]

/-- Setting of a query: the search array holds `L` and everything is in range. -/
structure Setting (ds : DataSet F) (search : Option Arr) (L : List Nat) (q : Nat) : Prop where
  complete : ds.Complete
  holds : ArrHolds search L
  range : ∀ x ∈ L, x < ds.n
  query : q < ds.n

theorem Setting.cand {ds : DataSet F} {search : Option Arr} {L : List Nat} {q : Nat} (h : Setting ds search L q) {s : Nat} (hs : s < L.length) :
    idxGet search s = some L[s] ∧ sqDist ds q L[s] = some (ds.sqd q L[s]) :=
  ⟨h.holds.get (List.getElem?_eq_getElem hs), sqDist_eq h.complete h.query (h.range _ (List.getElem_mem hs))⟩

theorem fillRest_spec {ds : DataSet F} {search : Option Arr} {L : List Nat} {q : Nat} (h : Setting ds search L q) {k base s : Nat} (hk : 0 < k)
    {dl : Buf F} {il : Buf Nat} {acc : List (F × Nat)} (hs : s ≤ L.length) (hacc : s < L.length → acc.length = k) (hl : Lists dl il base acc)
    (hd : k ≤ dl.len) (hi : base + k ≤ il.len) :
    Wp (fillRest ds L.length search q k base s dl il) fun r =>
      Lists r.1 r.2 base ((cands ds q (L.drop s)).foldl keepNear acc) ∧ Frame dl il base k r.1 r.2 := by
  unfold fillRest
  by_cases hsl : s < L.length
  swap
  · have : s = L.length := by omega
    subst this
    refine wp_forLt (fun _ r => r = (dl, il)) le_rfl rfl (fun i s h1 h2 => by omega) ?_
    rintro _ rfl
    simpa [cands] using ⟨hl, Frame.refl⟩
  have hak := hacc hsl
  refine wp_forLt (fun i r => Lists r.1 r.2 base ((cands ds q ((L.drop s).take (i - s))).foldl keepNear acc) ∧ Frame dl il base k r.1 r.2) hs
    (by simpa [cands] using ⟨hl, Frame.refl⟩) ?_ ?_
  · rintro i ⟨dl', il'⟩ h1 h2 ⟨h3, h4⟩
    obtain ⟨e1, e2⟩ := h.cand h2
    have hstep : (cands ds q ((L.drop s).take (i + 1 - s))).foldl keepNear acc =
        keepNear ((cands ds q ((L.drop s).take (i - s))).foldl keepNear acc) (ds.sqd q L[i], L[i]) := by
      rw [show i + 1 - s = (i - s) + 1 by omega, List.take_succ, List.getElem?_drop, show s + (i - s) = i by omega, List.getElem?_eq_getElem h2]
      simp [cands]
    rw [hstep]
    set cur := (cands ds q ((L.drop s).take (i - s))).foldl keepNear acc with hcur
    have hlen : cur.length = k := by rw [hcur, length_foldl_keepNear, hak]
    dsimp only
    rw [wp_bind, wp_eq e1, wp_bind, wp_eq e2]
    cases hc : cur with
    | nil => rw [hc] at hlen; simp at hlen; omega
    | cons y ys =>
      rw [hc] at h3 hlen
      simp only [List.length_cons] at hlen
      have hh := h3.head
      rw [wp_bind, wp_eq (by rw [show k - 1 = ys.length by omega]; exact hh.1)]
      simp only [keepNear]
      split
      · rw [wp_pure]; exact ⟨h3, h4⟩
      · have := addDist_spec (ds.sqd q L[i]) L[i] base ys dl' il' h3.tail (by rw [h4.dlen]; omega) (by rw [h4.ilen]; omega)
        rw [show k - 1 = ys.length by omega]
        refine this.mono fun r hr => ⟨hr.1, h4.trans hr.2 le_rfl (by omega)⟩
  · rintro ⟨dl', il'⟩ ⟨h3, h4⟩
    refine ⟨?_, h4⟩
    rwa [List.take_of_length_le (by simp)] at h3

/-- The state after looking at a prefix of the candidates while fewer than `k` have been collected. -/
def within (rsq : Option F) (l : List (F × Nat)) : List (F × Nat) :=
  l.foldl (fun acc x => if rsq.any (fun r => FloatOps.lt r x.1) then acc else insertFar x acc) []

theorem within_append (rsq : Option F) (l : List (F × Nat)) (x : F × Nat) :
    within rsq (l ++ [x]) = if rsq.any (fun r => FloatOps.lt r x.1) then within rsq l else insertFar x (within rsq l) := by
  simp [within]

theorem collect_eq (k : Nat) (rsq : Option F) (pre post : List (F × Nat))
    (hpre : ∀ p q, pre = p ++ q → q ≠ [] → (within rsq p).length ≠ k) :
    collect k rsq [] (pre ++ post) = collect k rsq (within rsq pre) post := by
  induction pre using List.reverseRecOn generalizing post with
  | nil => rfl
  | append_singleton pre x ih =>
    rw [List.append_assoc, ih (post := [x] ++ post)
      (fun p q hpq hq => hpre p (q ++ [x]) (by rw [hpq]; simp) (by simp))]
    have := hpre pre [x] rfl (by simp)
    rw [within_append, List.singleton_append, collect, if_neg this]
    split <;> rfl

theorem length_within_le (rsq : Option F) (l : List (F × Nat)) : (within rsq l).length ≤ l.length := by
  induction l using List.reverseRecOn with
  | nil => simp [within]
  | append_singleton l x ih =>
    rw [within_append, List.length_append]; split
    · simp; omega
    · rw [length_insertFar]; simp; omega

theorem length_within_mono (rsq : Option F) (p q : List (F × Nat)) : (within rsq p).length ≤ (within rsq (p ++ q)).length := by
  induction q using List.reverseRecOn with
  | nil => simp
  | append_singleton l x ih =>
    rw [← List.append_assoc, within_append]; split
    · exact ih
    · rw [length_insertFar]; omega

theorem collect_self (k : Nat) (rsq : Option F) (acc xs : List (F × Nat)) (h : acc.length = k) : collect k rsq acc xs = xs.foldl keepNear acc := by
  cases xs with
  | nil => rfl
  | cons x xs => rw [collect, if_pos h]

theorem fillRadius_spec {ds : DataSet F} {search : Option Arr} {L : List Nat} {q : Nat} (h : Setting ds search L q) {k base : Nat} (rsq : F)
    {dl : Buf F} {il : Buf Nat} (hd : k ≤ dl.len) (hi : base + k ≤ il.len) :
    Wp (fillRadius ds L.length search q k rsq base dl il) fun r =>
      r.1 ≤ L.length ∧ ∃ acc, r.2.1 = acc.length ∧ acc.length ≤ k ∧ (r.1 < L.length → acc.length = k) ∧ Lists r.2.2.1 r.2.2.2 base acc ∧
        Frame dl il base k r.2.2.1 r.2.2.2 ∧ collect k (some rsq) [] (cands ds q L) = (cands ds q (L.drop r.1)).foldl keepNear acc := by
  unfold fillRadius
  rw [wp_bind]
  refine wp_forLtB
    (fun i st => st.2.2 = (within (some rsq) (cands ds q (L.take i))).length ∧ st.2.2 ≤ k ∧
      Lists st.1 st.2.1 base (within (some rsq) (cands ds q (L.take i))) ∧ Frame dl il base k st.1 st.2.1 ∧
      ∀ j, j < i → (within (some rsq) (cands ds q (L.take j))).length < k)
    (fun r => r.1 < L.length ∧ r.2.1 = (within (some rsq) (cands ds q (L.take r.1))).length ∧ r.2.1 = k ∧
      Lists r.2.2.1 r.2.2.2 base (within (some rsq) (cands ds q (L.take r.1))) ∧ Frame dl il base k r.2.2.1 r.2.2.2 ∧
      ∀ j, j < r.1 → (within (some rsq) (cands ds q (L.take j))).length < k)
    (Nat.zero_le _) ?_ ?_ ?_ ?_
  · refine ⟨by simp [cands, within], by simp, ?_, Frame.refl, fun j hj => by omega⟩
    intro i p hp; simp [cands, within] at hp
  · rintro i ⟨dl', il', found⟩ - hiL ⟨h1, h2, h3, h4, h5⟩
    dsimp only at h1 h2 h3 h4 ⊢
    split
    · rename_i hk
      rw [wp_pure]
      exact ⟨hiL, h1, hk, h3, h4, h5⟩
    · rename_i hk
      obtain ⟨e1, e2⟩ := h.cand hiL
      rw [wp_bind, wp_eq e1, wp_bind, wp_eq e2]
      have hstep : cands ds q (L.take (i + 1)) = cands ds q (L.take i) ++ [(ds.sqd q L[i], L[i])] := by
        rw [cands, List.take_succ_eq_append_getElem hiL, List.map_append]; rfl
      have hlast : ∀ j, j < i + 1 → (within (some rsq) (cands ds q (L.take j))).length < k := by
        intro j hj
        by_cases hji : j < i
        · exact h5 j hji
        · have : j = i := by omega
          subst this; omega
      split
      · rename_i hlt
        rw [wp_pure]
        dsimp only
        rw [hstep, within_append, if_pos (by simpa using hlt)]
        exact ⟨h1, h2, h3, h4, hlast⟩
      · rename_i hlt
        rw [wp_bind, h1]
        refine (addDist_spec (ds.sqd q L[i]) L[i] base _ dl' il' h3 (by rw [h4.dlen]; omega) (by rw [h4.ilen]; omega)).mono ?_
        rintro ⟨dl'', il''⟩ ⟨g1, g2⟩
        rw [wp_pure]
        dsimp only
        rw [hstep, within_append, if_neg (by simpa using hlt)]
        exact ⟨by rw [length_insertFar], by omega, g1, h4.trans g2 le_rfl (by omega), hlast⟩
  · rintro ⟨dl', il', found⟩ ⟨h1, h2, h3, h4, h5⟩
    dsimp only at h1 h2 h3 h4 h5
    rw [wp_pure]
    refine ⟨le_rfl, within (some rsq) (cands ds q L), ?_, ?_, fun hx => absurd hx (lt_irrefl _), ?_, h4, ?_⟩
    · simpa using h1
    · rw [List.take_length] at h1; omega
    · simpa using h3
    · have := collect_eq k (some rsq) (cands ds q L) [] (by
        intro p r hpr hr
        have hp : p = cands ds q (L.take p.length) := by
          have : p = (cands ds q L).take p.length := by rw [hpr]; simp
          rw [this]; simp [cands, List.map_take]
        have hlt : p.length < L.length := by
          have : (cands ds q L).length = p.length + r.length := by rw [hpr]; simp
          have h0 : 0 < r.length := List.length_pos_of_ne_nil hr
          simp [cands] at this; omega
        have := h5 p.length hlt
        rw [← hp] at this; omega)
      simp only [List.append_nil] at this
      rw [this]
      simp [cands, collect]
  · rintro ⟨s, found, dl', il'⟩ ⟨h1, h2, h3, h4, h5, h6⟩
    dsimp only at h1 h2 h3 h4 h5 h6
    rw [wp_pure]
    refine ⟨h1.le, _, h2, by omega, fun _ => by omega, h4, h5, ?_⟩
    have hsplit : cands ds q L = cands ds q (L.take s) ++ cands ds q (L.drop s) := by
      simp only [cands, ← List.map_append, List.take_append_drop]
    rw [hsplit, collect_eq, collect_self _ _ _ _ (by omega)]
    intro p r hpr hr
    have hp : p = cands ds q (L.take p.length) := by
      have h7 : p = (cands ds q (L.take s)).take p.length := by rw [hpr]; simp
      have hlt : p.length ≤ s := by
        have : (cands ds q (L.take s)).length = p.length + r.length := by rw [hpr]; simp
        simp [cands] at this; omega
      have h8 : (cands ds q (L.take s)).take p.length = cands ds q (L.take p.length) := by
        simp only [cands, ← List.map_take, List.take_take]
        rw [min_eq_left hlt]
      rw [← h8]; exact h7
    have hlt : p.length < s := by
      have : (cands ds q (L.take s)).length = p.length + r.length := by rw [hpr]; simp
      have h0 : 0 < r.length := List.length_pos_of_ne_nil hr
      simp [cands] at this; omega
    have := h6 p.length hlt
    rw [← hp] at this; omega

theorem length_within_none (l : List (F × Nat)) : (within none l).length = l.length := by
  induction l using List.reverseRecOn with
  | nil => simp [within]
  | append_singleton l x ih =>
    rw [within_append, if_neg (by simp), length_insertFar, ih]; simp

theorem fillFirst_spec {ds : DataSet F} {search : Option Arr} {L : List Nat} {q : Nat} (h : Setting ds search L q) {k base : Nat} (hkL : k ≤ L.length)
    {dl : Buf F} {il : Buf Nat} (hd : k ≤ dl.len) (hi : base + k ≤ il.len) :
    Wp (fillFirst ds search q k base dl il) fun r => Lists r.1 r.2 base (within none (cands ds q (L.take k))) ∧ Frame dl il base k r.1 r.2 := by
  unfold fillFirst
  refine wp_forLt (fun i r => Lists r.1 r.2 base (within none (cands ds q (L.take i))) ∧ Frame dl il base k r.1 r.2) (Nat.zero_le _) ?_ ?_ ?_
  · exact ⟨fun i p hp => by simp [cands, within] at hp, Frame.refl⟩
  · rintro i ⟨dl', il'⟩ - hik ⟨h1, h2⟩
    have hiL : i < L.length := by omega
    obtain ⟨e1, e2⟩ := h.cand hiL
    dsimp only
    rw [wp_bind, wp_eq e1, wp_bind, wp_eq e2]
    have hlen : (within none (cands ds q (L.take i))).length = i := by
      rw [length_within_none]; simp [cands]; omega
    have := addDist_spec (ds.sqd q L[i]) L[i] base _ dl' il' h1 (by rw [hlen, h2.dlen]; omega) (by rw [hlen, h2.ilen]; omega)
    rw [hlen] at this
    refine this.mono ?_
    rintro ⟨dl'', il''⟩ ⟨g1, g2⟩
    have hstep : cands ds q (L.take (i + 1)) = cands ds q (L.take i) ++ [(ds.sqd q L[i], L[i])] := by
      rw [cands, List.take_succ_eq_append_getElem hiL, List.map_append]; rfl
    rw [hstep, within_append, if_neg (by simp)]
    exact ⟨g1, h2.trans g2 le_rfl (by omega)⟩
  · rintro ⟨dl', il'⟩ hh; exact hh

/-- One query: the number found and the lists are those of `collect`. -/
theorem nnQuery_spec {ds : DataSet F} {search : Option Arr} {L : List Nat} {q : Nat} (h : Setting ds search L q) {k base : Nat} (hk : 0 < k) (hkL : k ≤ L.length)
    (rs : Bool) (rsq : F) {dl : Buf F} {il : Buf Nat} (hd : k ≤ dl.len) (hi : base + k ≤ il.len) :
    Wp (nnQuery ds L.length search q k rs rsq base dl il) fun r => ∃ acc, acc = collect k (if rs then some rsq else none) [] (cands ds q L) ∧
      r.1 = acc.length ∧ acc.length ≤ k ∧ Lists r.2.1 r.2.2 base acc ∧ Frame dl il base k r.2.1 r.2.2 := by
  unfold nnQuery
  cases rs
  · rw [if_neg Bool.false_ne_true, wp_bind]
    refine (fillFirst_spec h hkL hd hi).mono ?_
    rintro ⟨dl', il'⟩ ⟨h1, h2⟩
    dsimp only at h1 h2 ⊢
    have hlen : (within none (cands ds q (L.take k))).length = k := by
      rw [length_within_none]; simp [cands]; omega
    rw [wp_bind]
    refine (fillRest_spec h hk hkL (fun _ => hlen) h1 (by rw [h2.dlen]; exact hd) (by rw [h2.ilen]; exact hi)).mono ?_
    rintro ⟨dl'', il''⟩ ⟨h3, h4⟩
    dsimp only at h3 h4 ⊢
    rw [wp_pure]
    refine ⟨_, rfl, ?_, ?_, ?_, h2.trans h4 le_rfl le_rfl⟩ <;>
    · have hc : collect k (if (false : Bool) = true then some rsq else none) [] (cands ds q L) =
          (cands ds q (L.drop k)).foldl keepNear (within none (cands ds q (L.take k))) := by
        rw [if_neg Bool.false_ne_true]
        have hsplit : cands ds q L = cands ds q (L.take k) ++ cands ds q (L.drop k) := by
          simp only [cands, ← List.map_append, List.take_append_drop]
        rw [hsplit, collect_eq, collect_self _ _ _ _ hlen]
        intro p r hpr hr
        rw [length_within_none]
        have : (cands ds q (L.take k)).length = p.length + r.length := by rw [hpr]; simp
        have h0 : 0 < r.length := List.length_pos_of_ne_nil hr
        simp [cands] at this; omega
      rw [hc]
      first
        | exact h3
        | (rw [length_foldl_keepNear, hlen])
  · rw [if_pos rfl, wp_bind]
    refine (fillRadius_spec h rsq hd hi).mono ?_
    rintro ⟨s, found, dl', il'⟩ ⟨hs, acc, h1, h2, h3, h4, h5, h6⟩
    dsimp only at hs h1 h2 h3 h4 h5 h6 ⊢
    rw [wp_bind]
    refine (fillRest_spec h hk hs h3 h4 (by rw [h5.dlen]; exact hd) (by rw [h5.ilen]; exact hi)).mono ?_
    rintro ⟨dl'', il''⟩ ⟨h7, h8⟩
    dsimp only at h7 h8 ⊢
    rw [wp_pure]
    refine ⟨_, rfl, ?_, ?_, ?_, h5.trans h8 le_rfl le_rfl⟩
    · rw [if_pos rfl, h6, length_foldl_keepNear]; exact h1
    · rw [if_pos rfl, h6, length_foldl_keepNear]; exact h2
    · rw [if_pos rfl, h6]; exact h7

/-! ### All queries -/

/-- The answers to a list of queries. -/
def answers (ds : DataSet F) (L : List Nat) (k : Nat) (radius : Option F) (Q : List Nat) : List (Nat × Option (List Nat)) :=
  Q.map fun q => (q, nnAnswer (ds.sqd q) L k radius)

theorem answered_append (a b : List (Nat × Option (List Nat))) : answered (a ++ b) = answered a ++ answered b := by
  simp [answered]

theorem length_answered_le (a : List (Nat × Option (List Nat))) : (answered a).length ≤ a.length := List.length_filterMap_le _ _

theorem nnAnswer_eq (ds : DataSet F) (L : List Nat) (q k : Nat) (rs : Bool) (radius : F) :
    nnAnswer (ds.sqd q) L k (if rs then some radius else none) =
      let acc := collect k (if rs then some (FloatOps.mul radius radius) else none) [] (cands ds q L)
      if acc.length = k then some (acc.reverse.map Prod.snd) else none := by
  cases rs <;> rfl

theorem nnAnswer_length {d : Nat → F} {L : List Nat} {k : Nat} {radius : Option F} {l : List Nat} (h : nnAnswer d L k radius = some l) : l.length = k := by
  unfold nnAnswer at h
  dsimp only at h
  split at h
  · cases h; simpa
  · cases h

theorem answered_length_of_mem {ds : DataSet F} {L : List Nat} {k : Nat} {radius : Option F} {Q : List Nat} {p : Nat × List Nat}
    (h : p ∈ answered (answers ds L k radius Q)) : p.2.length = k := by
  simp only [answered, answers, List.mem_filterMap, List.mem_map] at h
  obtain ⟨a, ⟨q, -, rfl⟩, h2⟩ := h
  cases hn : nnAnswer (ds.sqd q) L k radius with
  | none => simp [hn] at h2
  | some l => simp [hn] at h2; subst h2; exact nnAnswer_length hn

theorem nnSearchK_spec {ds : DataSet F} {search queries : Option Arr} {L Q : List Nat} (hc : ds.Complete) (hsr : ArrHolds search L)
    (hL : ∀ x ∈ L, x < ds.n) (hqs : ArrHolds queries Q) (hQ : ∀ x ∈ Q, x < ds.n) {k : Nat} (hk : 0 < k) (hkL : k ≤ L.length) (rs : Bool) (radius : F)
    (oq : OutQ) {dl : Buf F} {nn : Buf Nat} (hd : k ≤ dl.len) (hn : Q.length * k ≤ nn.len) (ho : oq = .null ∨ Q.length ≤ oq.len queries)
    (hal : oq = .same → queries ≠ none) :
    Wp (nnSearchK ds L.length search Q.length queries k rs radius oq dl nn) fun out =>
      out.nn.len = nn.len ∧ (oq ≠ .null → out.outQ.len = oq.len queries) ∧
      out.Matches oq k (answers ds L k (if rs then some radius else none) Q) := by
  unfold nnSearchK
  set rad : Option F := if rs then some radius else none with hrad
  rw [wp_bind]
  have hlen0 : (outQBuf queries oq).len = oq.len queries := by cases oq <;> rfl
  refine wp_forLt
    (fun i st => ∃ out : NNOut, st.1 = out.numOk ∧ st.2.1 = out.outQ ∧ st.2.2.1 = out.nn ∧ st.2.2.2.len = dl.len ∧
      out.nn.len = nn.len ∧ out.outQ.len = oq.len queries ∧ out.Matches oq k (answers ds L k rad (Q.take i)) ∧
      (oq = .same → ∀ j x : Nat, i ≤ j → Q[j]? = some x → out.outQ.get j = some x))
    (Nat.zero_le _) ?_ ?_ ?_
  · refine ⟨⟨0, outQBuf queries oq, nn⟩, rfl, rfl, rfl, rfl, rfl, hlen0, ⟨by simp [answers, answered], ?_, ?_⟩, ?_⟩
    · intro _ i p hp; simp [answers, answered] at hp
    · intro i p hp; simp [answers, answered] at hp
    · rintro rfl j x - hx
      cases hqq : queries with
      | none => exact absurd hqq (hal rfl)
      | some a =>
        rw [hqq] at hqs
        exact hqs j x hx
  · rintro i ⟨numOk, oqb, nnb, dlb⟩ - hiQ ⟨out, rfl, rfl, rfl, h1, h2, h3, h4, h5⟩
    dsimp only at h1 ⊢
    have hqi : queryAt queries oq out.outQ i = some Q[i] := by
      have hg := hqs.get (List.getElem?_eq_getElem hiQ)
      unfold queryAt
      split
      · exact h5 rfl i _ le_rfl (List.getElem?_eq_getElem hiQ)
      · exact hg
    rw [wp_bind, wp_eq hqi, wp_bind]
    set res := answers ds L k rad (Q.take i) with hres
    have hlt : (answered res).length ≤ i := by
      refine (length_answered_le _).trans ?_
      rw [hres]; simp [answers]
    have hroom : out.numOk * k + k ≤ out.nn.len := by
      rw [h4.numOk, h2]
      calc (answered res).length * k + k = ((answered res).length + 1) * k := by ring
        _ ≤ Q.length * k := Nat.mul_le_mul_right _ (by omega)
        _ ≤ nn.len := hn
    have hset : Setting ds search L Q[i] := ⟨hc, hsr, hL, hQ _ (List.getElem_mem hiQ)⟩
    refine (nnQuery_spec hset hk hkL rs (FloatOps.mul radius radius) (by rw [h1]; exact hd) hroom).mono ?_
    rintro ⟨found, dl', nn'⟩ ⟨acc, ha, hf, hak, hli, hfr⟩
    dsimp only at hf hli hfr ⊢
    have hans : nnAnswer (ds.sqd Q[i]) L k rad = if acc.length = k then some (acc.reverse.map Prod.snd) else none := by
      rw [hrad, nnAnswer_eq, ← ha]
    have hstep : answers ds L k rad (Q.take (i + 1)) = res ++ [(Q[i], nnAnswer (ds.sqd Q[i]) L k rad)] := by
      rw [hres, answers, List.take_succ_eq_append_getElem hiQ, List.map_append]; rfl
    have hold : ∀ (i' : Nat) (p : Nat × List Nat), (answered res)[i']? = some p → ∀ (j x : Nat), p.2[j]? = some x →
        nn'.get (i' * k + j) = some x := by
      intro i' p hp j x hx
      have hi' : i' < (answered res).length := by
        by_contra hcc; rw [List.getElem?_eq_none (by omega)] at hp; cases hp
      have hpk : p.2.length = k := answered_length_of_mem (List.mem_of_getElem? hp)
      have hj : j < k := by
        by_contra hcc; rw [List.getElem?_eq_none (by omega)] at hx; cases hx
      rw [hfr.iget]
      · exact h4.neighbors i' p hp j x hx
      · left
        rw [h4.numOk]
        calc i' * k + j < i' * k + k := by omega
          _ = (i' + 1) * k := by ring
          _ ≤ (answered res).length * k := Nat.mul_le_mul_right _ hi'
    by_cases hfk : found = k
    · rw [if_pos hfk]
      have hanss : nnAnswer (ds.sqd Q[i]) L k rad = some (acc.reverse.map Prod.snd) := by rw [hans, if_pos (by omega)]
      have hstep2 : answered (answers ds L k rad (Q.take (i + 1))) = answered res ++ [(Q[i], acc.reverse.map Prod.snd)] := by
        rw [hstep, answered_append, hanss]; rfl
      have hnew : ∀ (i' : Nat) (p : Nat × List Nat), (answered (answers ds L k rad (Q.take (i + 1))))[i']? = some p → ∀ (j x : Nat), p.2[j]? = some x →
          nn'.get (i' * k + j) = some x := by
        intro i' p hp j x hx
        rw [hstep2] at hp
        by_cases hi' : i' < (answered res).length
        · rw [List.getElem?_append_left hi'] at hp; exact hold i' p hp j x hx
        · rw [List.getElem?_append_right (by omega)] at hp
          have h0 : i' - (answered res).length = 0 := by
            by_contra hcc; rw [List.getElem?_eq_none (by simp; omega)] at hp; cases hp
          rw [h0] at hp; simp only [List.getElem?_cons_zero, Option.some.injEq] at hp; subst hp
          have hii : i' = out.numOk := by rw [h4.numOk]; omega
          subst hii
          rw [List.getElem?_map] at hx
          cases hr : acc.reverse[j]? with
          | none => rw [hr] at hx; cases hx
          | some pr =>
            rw [hr] at hx; simp only [Option.map_some, Option.some.injEq] at hx; subst hx
            exact (hli j pr hr).2
      cases oq with
      | null =>
        simp only [wp_pure]
        refine ⟨⟨out.numOk + 1, out.outQ, nn'⟩, rfl, rfl, rfl, by rw [hfr.dlen]; exact h1, by rw [← h2]; exact hfr.ilen, h3, ⟨?_, ?_, hnew⟩, ?_⟩
        · rw [hstep2]; simp [h4.numOk]
        · intro hx; exact absurd rfl hx
        · intro hx; cases hx
      | same =>
        have hoq : out.numOk < out.outQ.len := by
          rw [h3, h4.numOk]; rcases ho with ho | ho
          · cases ho
          · omega
        simp only [wp_bind, Buf.wp_set, wp_pure]
        refine ⟨hoq, ⟨out.numOk + 1, out.outQ.upd out.numOk Q[i], nn'⟩, rfl, rfl, rfl, by rw [hfr.dlen]; exact h1,
          by rw [← h2]; exact hfr.ilen, h3, ⟨?_, ?_, hnew⟩, ?_⟩
        · rw [hstep2]; simp [h4.numOk]
        · intro hx i' p hp
          rw [hstep2] at hp
          by_cases hi' : i' < (answered res).length
          · rw [List.getElem?_append_left hi'] at hp
            rw [Buf.get_upd_ne _ _ (by rw [h4.numOk]; omega)]
            exact h4.queries hx i' p hp
          · rw [List.getElem?_append_right (by omega)] at hp
            have h0 : i' - (answered res).length = 0 := by
              by_contra hcc; rw [List.getElem?_eq_none (by simp; omega)] at hp; cases hp
            rw [h0] at hp; simp only [List.getElem?_cons_zero, Option.some.injEq] at hp; subst hp
            have hii : i' = out.numOk := by rw [h4.numOk]; omega
            subst hii
            exact Buf.get_upd_self _ _ hoq
        · intro hx j x hj hjx
          rw [Buf.get_upd_ne _ _ (by rw [h4.numOk]; omega)]
          exact h5 rfl j x (by omega) hjx
      | buf b =>
        have hoq : out.numOk < out.outQ.len := by
          rw [h3, h4.numOk]; rcases ho with ho | ho
          · cases ho
          · omega
        simp only [wp_bind, Buf.wp_set, wp_pure]
        refine ⟨hoq, ⟨out.numOk + 1, out.outQ.upd out.numOk Q[i], nn'⟩, rfl, rfl, rfl, by rw [hfr.dlen]; exact h1,
          by rw [← h2]; exact hfr.ilen, h3, ⟨?_, ?_, hnew⟩, ?_⟩
        · rw [hstep2]; simp [h4.numOk]
        · intro hx i' p hp
          rw [hstep2] at hp
          by_cases hi' : i' < (answered res).length
          · rw [List.getElem?_append_left hi'] at hp
            rw [Buf.get_upd_ne _ _ (by rw [h4.numOk]; omega)]
            exact h4.queries hx i' p hp
          · rw [List.getElem?_append_right (by omega)] at hp
            have h0 : i' - (answered res).length = 0 := by
              by_contra hcc; rw [List.getElem?_eq_none (by simp; omega)] at hp; cases hp
            rw [h0] at hp; simp only [List.getElem?_cons_zero, Option.some.injEq] at hp; subst hp
            have hii : i' = out.numOk := by rw [h4.numOk]; omega
            subst hii
            exact Buf.get_upd_self _ _ hoq
        · intro hx; cases hx
    · rw [if_neg hfk, wp_pure]
      have hansn : nnAnswer (ds.sqd Q[i]) L k rad = none := by rw [hans, if_neg (by omega)]
      have hstep2 : answered (answers ds L k rad (Q.take (i + 1))) = answered res := by
        rw [hstep, answered_append, hansn]; simp [answered]
      refine ⟨⟨out.numOk, out.outQ, nn'⟩, rfl, rfl, rfl, by rw [hfr.dlen]; exact h1, by rw [← h2]; exact hfr.ilen, h3, ⟨?_, ?_, ?_⟩, ?_⟩
      · rw [hstep2]; exact h4.numOk
      · rw [hstep2]; exact h4.queries
      · rw [hstep2]; exact hold
      · intro hx j x hj hjx; exact h5 hx j x (by omega) hjx
  · rintro ⟨numOk, oqb, nnb, dlb⟩ ⟨out, rfl, rfl, rfl, -, h2, h3, h4, -⟩
    dsimp only
    rw [wp_pure]
    rw [List.take_length] at h4
    exact ⟨h2, fun _ => h3, h4⟩

/-! ### Answers are well formed -/

theorem subperm_keepNear (acc : List (F × Nat)) (x : F × Nat) : (keepNear acc x).Subperm (x :: acc) := by
  cases acc with
  | nil => exact List.nil_subperm
  | cons y ys =>
    unfold keepNear; dsimp only; split
    · exact (List.sublist_cons_self _ _).subperm
    · exact (perm_insertFar x ys).subperm.trans (((List.sublist_cons_self y ys).cons_cons x).subperm)

theorem subperm_foldl_keepNear (xs acc : List (F × Nat)) : (xs.foldl keepNear acc).Subperm (xs ++ acc) := by
  induction xs generalizing acc with
  | nil => exact List.Subperm.refl _
  | cons x xs ih =>
    rw [List.foldl_cons]
    refine (ih _).trans ?_
    refine ((List.subperm_append_left xs).2 (subperm_keepNear acc x)).trans ?_
    exact (List.perm_middle).subperm

theorem subperm_collect (k : Nat) (rsq : Option F) (acc xs : List (F × Nat)) : (collect k rsq acc xs).Subperm (xs ++ acc) := by
  induction xs generalizing acc with
  | nil => exact List.Subperm.refl _
  | cons x xs ih =>
    rw [collect]
    split
    · exact subperm_foldl_keepNear _ _
    · split
      · exact (ih acc).trans (List.sublist_cons_self _ _).subperm
      · refine (ih _).trans ?_
        refine ((List.subperm_append_left xs).2 (perm_insertFar x acc).subperm).trans ?_
        exact (List.perm_middle).subperm

theorem collect_none_length (k : Nat) (acc xs : List (F × Nat)) (h : acc.length ≤ k) :
    (collect k none acc xs).length = min k (acc.length + xs.length) := by
  induction xs generalizing acc with
  | nil => simp [collect, h]
  | cons x xs ih =>
    rw [collect]
    split
    · rw [length_foldl_keepNear]; omega
    · rw [if_neg (by simp), ih _ (by rw [length_insertFar]; omega), length_insertFar]; simp; omega

theorem nnAnswer_wellFormed {d : Nat → F} {L : List Nat} {k : Nat} {radius : Option F} (hL : L.Nodup) (hk : k ≤ L.length) (q : Nat) :
    WellFormed L k radius q (nnAnswer d L k radius) := by
  refine ⟨fun hr => ?_, fun l hl => ⟨nnAnswer_length hl, ?_⟩⟩
  · subst hr
    unfold nnAnswer
    dsimp only
    rw [if_pos]
    · simp
    · rw [Option.map_none, collect_none_length _ _ _ (by simp)]; simp [hk]
  · unfold nnAnswer at hl
    dsimp only at hl
    split at hl
    · cases hl
      have hs := (subperm_collect k (radius.map fun r => FloatOps.mul r r) [] (L.map fun j => (d j, j)))
      rw [List.append_nil] at hs
      have hs2 : ((collect k (radius.map fun r => FloatOps.mul r r) [] (L.map fun j => (d j, j))).map Prod.snd).Subperm ((L.map fun j => (d j, j)).map Prod.snd) := by
        obtain ⟨l', hp, hsub⟩ := hs
        exact ⟨l'.map Prod.snd, hp.map _, hsub.map _⟩
      rw [List.map_map] at hs2
      have : (Prod.snd ∘ fun j => (d j, j)) = id := rfl
      rw [this, List.map_id] at hs2
      constructor
      · rw [List.map_reverse, List.nodup_reverse]
        obtain ⟨l', hp, hsub⟩ := hs2
        exact hp.nodup_iff.1 (hL.sublist hsub)
      · intro x hx
        rw [List.map_reverse, List.mem_reverse] at hx
        exact hs2.subset hx
    · cases hl

/-! ### Rows -/

theorem distRowsK_spec {ds : DataSet F} {queries cols : Option Arr} {Q C : List Nat} (hc : ds.Complete) (hq : ArrHolds queries Q) (hcs : ArrHolds cols C)
    (hQ : ∀ q ∈ Q, q < ds.n) (hC : ∀ c ∈ C, c < ds.n) {out : Buf F} (hl : Q.length * C.length ≤ out.len) :
    Wp (distRowsK ds Q.length queries C.length cols out) fun out' => out'.len = out.len ∧
      (∀ (i j q c : Nat), Q[i]? = some q → C[j]? = some c → out'.get (i * C.length + j) = some (ds.dist q c)) ∧
      ∀ i, Q.length * C.length ≤ i → out'.get i = out.get i := by
  unfold distRowsK
  rw [wp_bind]
  refine wp_forLt (fun i st => st.2 = i * C.length ∧ st.1.len = out.len ∧
      (∀ (i' j q c : Nat), i' < i → Q[i']? = some q → C[j]? = some c → st.1.get (i' * C.length + j) = some (ds.dist q c)) ∧
      ∀ i', i * C.length ≤ i' → st.1.get i' = out.get i') (Nat.zero_le _) ?_ ?_ ?_
  · exact ⟨by simp, rfl, fun i' j q c h => by omega, fun i' _ => rfl⟩
  · rintro i ⟨b, w⟩ - hi ⟨hw, h1, h2, h3⟩
    dsimp only at hw h1 h2 h3 ⊢
    refine wp_forLt (fun j st => st.2 = i * C.length + j ∧ st.1.len = out.len ∧
        (∀ (i' j' q c : Nat), (i' < i ∨ i' = i ∧ j' < j) → Q[i']? = some q → C[j']? = some c → st.1.get (i' * C.length + j') = some (ds.dist q c)) ∧
        ∀ i', i * C.length + j ≤ i' → st.1.get i' = out.get i') (Nat.zero_le _) ?_ ?_ ?_
    · refine ⟨by simpa using hw, h1, fun i' j' q c h => h2 i' j' q c (by omega), fun i' h => h3 i' (by omega)⟩
    · rintro j ⟨b, w⟩ - hj ⟨hw, h1, h2, h3⟩
      dsimp only at hw h1 h2 h3 ⊢
      rw [wp_bind, wp_eq (hq.get (List.getElem?_eq_getElem hi)), wp_bind, wp_eq (hcs.get (List.getElem?_eq_getElem hj)), wp_bind,
        wp_eq (sqDist_eq hc (hQ _ (List.getElem_mem hi)) (hC _ (List.getElem_mem hj))), wp_bind, Buf.wp_set, wp_pure]
      have hlt : w < b.len := by
        rw [hw, h1]
        calc i * C.length + j < i * C.length + C.length := by omega
          _ = (i + 1) * C.length := by ring
          _ ≤ Q.length * C.length := Nat.mul_le_mul_right _ hi
          _ ≤ out.len := hl
      refine ⟨hlt, by dsimp only; omega, h1, ?_, fun i' h => ?_⟩
      · intro i' j' q c h hq' hc'
        have hj' : j' < C.length := by
          by_contra hcc; rw [List.getElem?_eq_none (by omega)] at hc'; cases hc'
        dsimp only
        rcases Nat.lt_or_ge i' i with hlt' | hge
        · rw [Buf.get_upd_ne _ _ (by
            have : i' * C.length + j' < i * C.length := by
              calc i' * C.length + j' < i' * C.length + C.length := by omega
                _ = (i' + 1) * C.length := by ring
                _ ≤ i * C.length := Nat.mul_le_mul_right _ hlt'
            omega)]
          exact h2 i' j' q c (Or.inl hlt') hq' hc'
        · have : i' = i := by omega
          subst this
          by_cases hjj : j' < j
          · rw [Buf.get_upd_ne _ _ (by omega)]
            exact h2 i' j' q c (Or.inr ⟨rfl, hjj⟩) hq' hc'
          · have : j' = j := by omega
            subst this
            rw [← hw, Buf.get_upd_self _ _ hlt]
            rw [List.getElem?_eq_getElem hi] at hq'
            rw [List.getElem?_eq_getElem hj] at hc'
            cases hq'; cases hc'; rfl
      · dsimp only
        rw [Buf.get_upd_ne _ _ (by omega)]; exact h3 i' (by omega)
    · rintro ⟨b, w⟩ ⟨hw, h1, h2, h3⟩
      dsimp only at hw h1 h2 h3 ⊢
      refine ⟨by rw [hw]; ring, h1, fun i' j q c h hq' hc' => h2 i' j q c ?_ hq' hc', fun i' h => h3 i' ?_⟩
      · have hj' : j < C.length := by
          by_contra hcc; rw [List.getElem?_eq_none (by omega)] at hc'; cases hc'
        omega
      · calc i * C.length + C.length = (i + 1) * C.length := by ring
          _ ≤ i' := h
  · rintro ⟨b, w⟩ ⟨hw, h1, h2, h3⟩
    dsimp only at hw h1 h2 h3 ⊢
    rw [wp_pure]
    refine ⟨h1, fun i j q c hq' hc' => h2 i j q c ?_ hq' hc', h3⟩
    by_contra hcc; rw [List.getElem?_eq_none (by omega)] at hq'; cases hq'

/-! ### The contract -/

/-- The search object is live, has the given search set, and is a block of its own. -/
def builtinIsNN (n : Nat) (o : SearchObj) (set : List Nat) (own : Multiset Nat) (ids : List Nat) : Prop :=
  own = {o.id} ∧ ArrHolds o.search set ∧ set.length = o.len ∧ set.Nodup ∧ (∀ x ∈ set, x < n) ∧ ids = arrIds o.search

theorem searchInit_spec (n len : Nat) (arr : Option Arr) (L : List Nat) (w : World) (ha : ArrHolds arr L) (hlen : L.length = len) (hnd : L.Nodup)
    (hr : ∀ x ∈ L, x < n) :
    WpM (searchInit len arr) w fun r w' => w'.fails = w.fails ∧ w'.err = w.err ∧
      match r with
      | none => w'.live = w.live ∧ (¬ w.NoFail ∨ False)
      | some o => ∃ own, builtinIsNN n o L own (arrIds arr) ∧ w'.live = own + w.live := by
  unfold searchInit
  rw [wpM_bind]
  refine wpM_alloc (fun w' h1 h2 h3 h4 => ?_) (fun i w' h2 h3 h4 => ?_)
  · simp only [wpM_pure]; exact ⟨h2, h4, h3, Or.inl h1⟩
  · simp only [wpM_pure]; exact ⟨h2, h4, {i}, ⟨rfl, ha, hlen, hnd, hr, rfl⟩, h3⟩

theorem nnSearch_spec (ds : DataSet F) (hc : ds.Complete) (o : SearchObj) (set : List Nat) (own : Multiset Nat) (ids : List Nat) (lenQ : Nat)
    (queries : Option Arr) (Q : List Nat) (k : Nat) (rs : Bool) (radius : F) (oq : OutQ) (nn : Buf Nat) (w : World) (ho : builtinIsNN ds.n o set own ids)
    (hown : own ≤ w.live) (hcall : NNCall ds.n set w ids lenQ queries Q k rs oq nn) :
    WpM (nnSearch ds o lenQ queries k rs radius oq nn) w fun r w' => w'.fails = w.fails ∧ w'.err = w.err ∧ w'.live = w.live ∧
      match r with
      | none => ¬ w.NoFail
      | some out => out.nn.len = nn.len ∧ (oq ≠ .null → out.outQ.len = oq.len queries) ∧
          out.Matches oq k (answers ds set k (if rs then some radius else none) Q) := by
  obtain ⟨rfl, h1, h2, h3, h4, rfl⟩ := ho
  unfold nnSearch
  rw [wpM_bind]
  refine wpM_alloc (fun w' g1 g2 g3 g4 => ?_) (fun i w' g2 g3 g4 => ?_)
  · simp only [wpM_pure]; exact ⟨g2, g4, g3, g1⟩
  · dsimp only
    rw [wpM_bind, wpM_useK]
    refine ⟨?_, ?_⟩
    · intro x hx
      rw [g3]
      simp only [List.cons_append, List.mem_cons, List.mem_append] at hx
      simp only [Multiset.mem_add, Multiset.mem_singleton]
      rcases hx with rfl | rfl | hx | hx
      · exact Or.inr (Multiset.mem_of_le hown (by simp))
      · exact Or.inl rfl
      · exact Or.inr (hcall.live x hx)
      · exact Or.inr (hcall.qlive x hx)
    · have := nnSearchK_spec (dl := (Buf.raw k : Buf F)) hc h1 h4 hcall.holds hcall.range hcall.kpos hcall.kle rs radius oq (by simp)
        (by rw [hcall.len]; exact hcall.room) (by rw [hcall.len]; exact hcall.oroom) hcall.notNull
      rw [h2, hcall.len] at this
      refine this.mono ?_
      rintro out ⟨k1, k2, k3⟩
      rw [wpM_bind]
      refine wpM_freeId w.live g3 fun w'' f1 f2 f3 => ?_
      rw [wpM_pure]
      exact ⟨f1.trans g2, f3.trans g4, f2, k1, k2, k3⟩

theorem searchClose_spec (n : Nat) (o : SearchObj) (set : List Nat) (own : Multiset Nat) (ids : List Nat) (w : World) (L : Multiset Nat)
    (ho : builtinIsNN n o set own ids) (hl : w.live = own + L) :
    WpM (searchClose o) w fun b w' => w'.fails = w.fails ∧ w'.err = w.err ∧ w'.live = L ∧ (b = false → ¬ w.NoFail ∨ False) := by
  obtain ⟨rfl, -⟩ := ho
  unfold searchClose
  rw [wpM_bind]
  refine wpM_freeId L hl fun w' h1 h2 h3 => ?_
  rw [wpM_pure]; exact ⟨h1, h3, h2, by simp⟩

theorem distRows_spec (ds : DataSet F) (hc : ds.Complete) {queries cols : Option Arr} {Q C : List Nat} (out : Buf F) (w : World)
    (hq : ArrHolds queries Q) (hc' : ArrHolds cols C) (hQ : ∀ q ∈ Q, q < ds.n) (hC : ∀ c ∈ C, c < ds.n)
    (hl1 : ∀ i ∈ arrIds queries, i ∈ w.live) (hl2 : ∀ i ∈ arrIds cols, i ∈ w.live) (hlen : Q.length * C.length ≤ out.len) :
    WpM ((builtinSpi (some ds)).distRows Q.length queries C.length cols out) w fun r w' => w'.fails = w.fails ∧ w'.err = w.err ∧ w'.live = w.live ∧
      ∃ out', r = some out' ∧ out'.len = out.len ∧
        (∀ (i j q c : Nat), Q[i]? = some q → C[j]? = some c → out'.get (i * C.length + j) = some (ds.dist q c)) ∧
        ∀ i, Q.length * C.length ≤ i → out'.get i = out.get i := by
  show WpM (useK (arrIds queries ++ arrIds cols) (distRowsK ds Q.length queries C.length cols out) >>= fun o => pure (some o)) w _
  rw [wpM_bind, wpM_useK]
  refine ⟨fun i hi => ?_, ?_⟩
  · rw [List.mem_append] at hi
    exact hi.elim (hl1 i) (hl2 i)
  · refine (distRowsK_spec hc hq hc' hQ hC hlen).mono fun out' h => ?_
    rw [wpM_pure]
    exact ⟨rfl, rfl, rfl, out', rfl, h⟩

/-- The built-in search functions work as documented; the answers are given by `nnAnswer`, so they satisfy every criterion that `nnAnswer` satisfies. -/
def builtinSpi_with (ds : DataSet F) (hc : ds.Complete) {A : Criterion F}
    (hA : ∀ set k radius q, set.Nodup → (∀ x ∈ set, x < ds.n) → q < ds.n → 0 < k → k ≤ set.length → A set k radius q (nnAnswer (ds.sqd q) set k radius)) :
    SpiOk (builtinSpi (some ds)) ds.n A ds.dist False where
  isNN := builtinIsNN ds.n
  nnInit := by
    intro len arr L w ha hlen _ hnd hr _
    refine (searchInit_spec ds.n len arr L w ha hlen hnd hr).mono ?_
    rintro (_ | o) w' h
    · exact h
    · exact h
  nnSearch := by
    intro o set own ids lenQ queries Q k rs radius oq nn w ho hown hcall
    refine (nnSearch_spec ds hc o set own ids lenQ queries Q k rs radius oq nn w ho hown hcall).mono ?_
    rintro (_ | out) w' ⟨h1, h2, h3, h4⟩
    · exact ⟨h1, h2, h3, Or.inl h4⟩
    · refine ⟨h1, h2, h3, h4.1, h4.2.1, _, ?_, ?_, h4.2.2⟩
      · rw [answers, List.map_map]; exact List.map_id _
      · intro p hp
        rw [answers, List.mem_map] at hp
        obtain ⟨q, hq, rfl⟩ := hp
        exact ⟨hA _ _ _ _ ho.2.2.2.1 ho.2.2.2.2.1 (hcall.range q hq) hcall.kpos hcall.kle, nnAnswer_wellFormed ho.2.2.2.1 hcall.kle q⟩
  nnClose := fun o set own ids w L ho hl => searchClose_spec ds.n o set own ids w L ho hl
  distRows := by
    intro lenQ queries Q lenC cols C out w hq hql hc' hcl hQ hC hpq hpc hl1 hl2 hlen
    subst hql hcl
    refine (distRows_spec ds hc out w hq hc' hQ hC hl1 hl2 hlen).mono ?_
    rintro _ w' ⟨h1, h2, h3, out', rfl, h4, h5, h6⟩
    exact ⟨h1, h2, h3, h4, h5⟩
  numPoints := rfl

/-- The built-in search functions work as documented; the answers are given by `nnAnswer`. -/
def builtinSpi_ok (ds : DataSet F) (hc : ds.Complete) :
    SpiOk (builtinSpi (some ds)) ds.n (fun set k radius q a => a = nnAnswer (ds.sqd q) set k radius) ds.dist False :=
  builtinSpi_with ds hc fun _ _ _ _ _ _ _ _ _ => rfl

end Scc
