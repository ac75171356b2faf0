/-
Sorting the arcs of the nearest neighbour digraph (`SCC_STABLE_NNG`).
-/
import Verif.Proofs.NngSize

set_option linter.unusedSimpArgs false
set_option linter.unusedVariables false

namespace Scc

section stored
variable {cfg : Cfg}

theorem stored_perm (cfg : Cfg) (l : List Nat) : (stored cfg l).Perm l := by
  unfold stored
  split
  · exact List.perm_insertionSort _ _
  · exact List.Perm.refl _

theorem stored_off (h : cfg.stableNng = false) (l : List Nat) : stored cfg l = l := by
  unfold stored; rw [h]; rfl

theorem map_stored_off (h : cfg.stableNng = false) (a : Option (List Nat)) : a.map (stored cfg) = a := by
  cases a with
  | none => rfl
  | some a => simp [stored_off h]

theorem stored_on (h : cfg.stableNng = true) (l : List Nat) : stored cfg l = l.insertionSort (· ≤ ·) := by
  unfold stored; rw [h]; rfl

@[simp] theorem stored_nil : stored cfg [] = [] := by unfold stored; split <;> rfl
@[simp] theorem stored_eq_nil {l : List Nat} : stored cfg l = [] ↔ l = [] := by
  constructor
  · intro h
    have := (stored_perm cfg l).length_eq
    rw [h] at this
    exact List.length_eq_zero_iff.1 this.symm
  · rintro rfl; exact stored_nil
@[simp] theorem length_stored {l : List Nat} : (stored cfg l).length = l.length := (stored_perm cfg l).length_eq
@[simp] theorem mem_stored {l : List Nat} {x : Nat} : x ∈ stored cfg l ↔ x ∈ l := (stored_perm cfg l).mem_iff
theorem nodup_stored {l : List Nat} : (stored cfg l).Nodup ↔ l.Nodup := (stored_perm cfg l).nodup_iff

/-- The order of two lists with the same elements is the same once they are stored in ascending order. -/
theorem stored_congr (h : cfg.stableNng = true) {l l' : List Nat} (hp : l.Perm l') : stored cfg l = stored cfg l' := by
  rw [stored_on h, stored_on h]
  refine List.Perm.eq_of_pairwise (le := (· ≤ ·)) (fun a b _ _ => Nat.le_antisymm) (List.pairwise_insertionSort _ _) (List.pairwise_insertionSort _ _) ?_
  exact (List.perm_insertionSort _ _).trans (hp.trans (List.perm_insertionSort _ _).symm)

theorem stored_sorted (h : cfg.stableNng = true) (l : List Nat) : (stored cfg l).Pairwise (· ≤ ·) := by
  rw [stored_on h]; exact List.pairwise_insertionSort _ _

/-- Removing the point itself from an answer does not depend on the order. -/
theorem stored_nbrs {v : Nat} {a : List Nat} (h : v ∈ a) : stored cfg (nbrs v a) = nbrs v (stored cfg a) := by
  cases hst : cfg.stableNng with
  | false => rw [stored_off hst, stored_off hst]
  | true =>
    have h' : v ∈ stored cfg a := mem_stored.2 h
    simp only [nbrs, h, h', if_true]
    refine List.Perm.eq_of_pairwise (le := (· ≤ ·)) (fun a b _ _ => Nat.le_antisymm) (stored_sorted hst _) ((stored_sorted hst a).filter _) ?_
    exact (stored_perm cfg _).trans ((stored_perm cfg a).filter _).symm

end stored

theorem qsortAt_spec {start : Nat} {l : List Nat} {b : Buf Nat} (h : ∀ j a, l[j]? = some a → b.get (start + j) = some a) :
    Wp (qsortAt start l.length b) fun b' => b'.len = b.len ∧ (∀ j a, (l.insertionSort (· ≤ ·))[j]? = some a → b'.get (start + j) = some a) ∧
      ∀ i, i < start ∨ start + l.length ≤ i → b'.get i = b.get i := by
  have hread : (b.drop start).read l.length = some l := by
    refine Buf.read_eq_some.2 ⟨rfl, fun i hi => ?_⟩
    have := h i l[i] (List.getElem?_eq_getElem hi)
    rw [List.getElem?_eq_getElem hi, ← this]
    have hlt := Buf.lt_of_get this
    unfold Buf.get Buf.drop
    rw [if_pos (show i < b.len - start by omega), if_pos hlt]
  unfold qsortAt
  rw [wp_bind, wp_eq hread]
  set s := l.insertionSort (· ≤ ·) with hs
  have hlen : s.length = l.length := List.length_insertionSort _ _
  refine wp_forLt (fun k b' => b'.len = b.len ∧ (∀ j a, j < k → s[j]? = some a → b'.get (start + j) = some a) ∧ ∀ i, i < start ∨ start + l.length ≤ i → b'.get i = b.get i)
    (Nat.zero_le _) ⟨rfl, fun j a hj => by omega, fun _ _ => rfl⟩ ?_ ?_
  · intro i b' _ hi ⟨k1, k2, k3⟩
    have hx := List.getElem?_eq_getElem (l := s) (i := i) (by omega)
    rw [wp_bind, wp_eq hx, Buf.wp_set]
    have hlt := Buf.lt_of_get (h i l[i] (List.getElem?_eq_getElem hi))
    refine ⟨by omega, k1, fun j a hj ha => ?_, fun m hm => ?_⟩
    · by_cases hji : j = i
      · subst hji
        rw [hx] at ha
        rw [Buf.get_upd_self _ _ (by omega)]; exact ha
      · rw [Buf.get_upd_ne _ _ (by omega)]; exact k2 j a (by omega) ha
    · rw [Buf.get_upd_ne _ _ (by omega)]; exact k3 m hm
  · intro b' ⟨k1, k2, k3⟩
    refine ⟨k1, fun j a ha => k2 j a ?_ ha, k3⟩
    have := (List.getElem?_eq_some_iff.1 ha).1
    omega

theorem sortRows_spec {n : Nat} {head tail : Buf Nat} {rows : Nat → List Nat} (hc : Csr n head tail rows) :
    Wp (sortRows n tail head) fun h => h.len = head.len ∧ Csr n h tail fun v => if v < n then (rows v).insertionSort (· ≤ ·) else rows v := by
  unfold sortRows
  refine wp_forLt (fun i h => h.len = head.len ∧ Csr n h tail fun v => if v < i then (rows v).insertionSort (· ≤ ·) else rows v) (Nat.zero_le _) ⟨rfl, by simpa using hc⟩ ?_ (fun h k => k)
  intro v h _ hv ⟨k1, k2⟩
  have e1 := k2.tail_get (v + 1) (by omega)
  have e2 := k2.tail_get v (by omega)
  rw [wp_bind, wp_eq e1, wp_bind, wp_eq e2]
  set rows' : Nat → List Nat := fun u => if u < v then (rows u).insertionSort (· ≤ ·) else rows u with hrows'
  have hrv : rows' v = rows v := by simp [hrows']
  have hoff : off rows' (v + 1) = off rows' v + (rows v).length := by show off rows' v + (rows' v).length = _; rw [hrv]
  have hfun : (fun u => if u < v + 1 then (rows u).insertionSort (· ≤ ·) else rows u) = fun u => if u = v then (rows v).insertionSort (· ≤ ·) else rows' u := by
    funext u
    by_cases hu : u = v
    · subst hu; simp
    · simp only [hrows', hu, if_false, show u < v + 1 ↔ u < v by omega]
  rw [hfun, if_neg (by omega), hoff, show off rows' v + (rows v).length - off rows' v = (rows v).length by omega]
  by_cases h1 : 1 < (rows v).length
  · rw [if_pos h1]
    refine (qsortAt_spec (l := rows v) (fun j a ha => k2.head_get v hv j a (by rw [hrv]; exact ha))).mono ?_
    rintro h' ⟨l1, l2, l3⟩
    refine ⟨l1.trans k1, k2.replaceRow hv (by rw [hrv]; exact List.length_insertionSort _ _) (fun a ha => ?_) l2 (fun i hi => l3 i (by omega))⟩
    exact k2.range v hv a (by rw [hrv]; exact (List.mem_insertionSort _).1 ha)
  · rw [if_neg h1, wp_pure]
    refine ⟨k1, ?_⟩
    have hs : (rows v).insertionSort (· ≤ ·) = rows v := by
      rcases hr : rows v with _ | ⟨a, _ | ⟨b, t⟩⟩
      · rfl
      · rfl
      · rw [hr] at h1; simp at h1
    have : (fun u => if u = v then (rows v).insertionSort (· ≤ ·) else rows' u) = rows' := by
      funext u
      by_cases hu : u = v
      · subst hu; simp [hs, hrv]
      · simp [hu]
    rw [this]; exact k2

/-- A digraph represents any rows that agree on its vertices. -/
theorem Csr.congr_rows {n : Nat} {h t : Buf Nat} {rows rows' : Nat → List Nat} (hc : Csr n h t rows) (he : ∀ v, v < n → rows' v = rows v) : Csr n h t rows' := by
  have ho : ∀ v, v ≤ n → off rows' v = off rows v := by
    intro v
    induction v with
    | zero => intro _; rfl
    | succ v ih =>
      intro hv
      show off _ v + _ = off rows v + _
      rw [ih (by omega), he v (by omega)]
  refine ⟨fun v hv => by rw [ho v hv]; exact hc.tail_get v hv, fun v hv j a hj => ?_, fun v hv a ha => ?_⟩
  · rw [ho v (by omega)]; exact hc.head_get v hv j a (by rw [← he v hv]; exact hj)
  · exact hc.range v hv a (by rw [← he v hv]; exact ha)

theorem sortNng_spec {cfg : Cfg} {d : Digraph} {rows : Nat → List Nat} (hr : d.Repr cfg rows) {w : World} {L : Multiset Nat} (hl : w.live = d.own + L) :
    WpM (sortNng cfg d) w fun d' w' => w' = w ∧ d'.own = d.own ∧ d'.n = d.n ∧ d'.Repr cfg fun v => stored cfg (rows v) := by
  unfold sortNng
  by_cases hst : cfg.stableNng = true
  · rw [if_pos hst, wpM_bind, wpM_useK]
    refine ⟨fun i hi => by rw [hl]; exact Multiset.mem_add.2 (Or.inl (mem_ids_iff_own.1 hi)), ?_⟩
    refine (sortRows_spec hr.csr).mono ?_
    rintro head ⟨a1, a2⟩
    rw [wpM_pure]
    refine ⟨rfl, by simp [Digraph.own], rfl, ?_, hr.tail_len, ?_, hr.vertices, hr.arcs, hr.arcs_size, ?_⟩
    · show Csr d.n (ptrBuf (ptrSet d.head head)) _ _
      exact (a2.of_get (fun _ _ => rfl) (fun i _ => ptrSet_get a1 i)).congr_rows fun v hv => by rw [stored_on hst, if_pos hv]
    · show (ptrBuf (ptrSet d.head head)).len = _
      rw [ptrSet_len a1]; exact hr.head_len
    · show _ ↔ ptrSet d.head head = none
      rw [ptrSet_eq_none]; exact hr.head_null
  · rw [if_neg hst, wpM_pure]
    refine ⟨rfl, rfl, rfl, ?_⟩
    have : (fun v => stored cfg (rows v)) = rows := by funext v; exact stored_off (by simpa using hst) _
    rw [this]; exact hr

end Scc
