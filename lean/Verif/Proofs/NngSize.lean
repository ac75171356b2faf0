/-
The nearest neighbour digraph for a size constraint: self matches, loop deletion, and the resulting rows.
-/
import Verif.Proofs.NngMake

set_option linter.unusedSimpArgs false
set_option linter.unusedVariables false

namespace Scc

/-- Replacing one row by another one of the same length. -/
theorem Csr.replaceRow {n : Nat} {h t h' : Buf Nat} {rows : Nat → List Nat} (hc : Csr n h t rows) {p : Nat} (hp : p < n) {r : List Nat} (hlen : r.length = (rows p).length)
    (hr : ∀ a ∈ r, a < n) (h1 : ∀ j a, r[j]? = some a → h'.get (off rows p + j) = some a)
    (h2 : ∀ i, i < off rows p ∨ off rows (p + 1) ≤ i → h'.get i = h.get i) : Csr n h' t (fun v => if v = p then r else rows v) := by
  have ho : ∀ v, off (fun v => if v = p then r else rows v) v = off rows v := by
    intro v
    induction v with
    | zero => rfl
    | succ v ih =>
      show off _ v + _ = off rows v + _
      rw [ih]
      by_cases hv : v = p
      · subst hv; simp [hlen]
      · simp [hv]
  refine ⟨fun v hv => by rw [ho]; exact hc.tail_get v hv, fun v hv j a hj => ?_, fun v hv a ha => ?_⟩
  · rw [ho]
    by_cases hvp : v = p
    · subst hvp; simp at hj; exact h1 j a hj
    · simp [hvp] at hj
      have hjl : j < (rows v).length := (List.getElem?_eq_some_iff.1 hj).1
      rw [h2]
      · exact hc.head_get v hv j a hj
      · rcases Nat.lt_or_gt_of_ne hvp with h | h
        · left
          have : off rows (v + 1) ≤ off rows p := off_mono h
          simp only [off] at this; omega
        · right
          have : off rows (p + 1) ≤ off rows v := off_mono h
          omega
  · by_cases hvp : v = p
    · subst hvp; simp at ha; exact hr a ha
    · simp [hvp] at ha; exact hc.range v hv a ha

/-- All rows after the self matches of the points in `L` are ensured. -/
def selfRows (L : List Nat) (rows : Nat → List Nat) (v : Nat) : List Nat := if v ∈ L then selfRow v (rows v) else rows v

theorem selfMatchPoint_spec {n : Nat} {head tail : Buf Nat} {rows : Nat → List Nat} (hc : Csr n head tail rows) {p : Nat} (hp : p < n) :
    Wp (selfMatchPoint tail p head) fun h => h.len = head.len ∧ Csr n h tail (fun v => if v = p then selfRow p (rows p) else rows v) := by
  have hself : p ∈ rows p ∨ rows p = [] → (fun v => if v = p then selfRow p (rows p) else rows v) = rows := by
    intro h
    funext v
    by_cases hv : v = p
    · subst hv; simp [selfRow, h]
    · simp [hv]
  unfold selfMatchPoint
  rw [wp_bind, wp_eq (hc.tail_get p hp.le), wp_bind, wp_eq (hc.tail_get (p + 1) hp)]
  have hoff : off rows (p + 1) = off rows p + (rows p).length := rfl
  rw [hoff]
  by_cases h0 : rows p = []
  · rw [if_pos (by simp [h0]), wp_pure, hself (Or.inr h0)]
    exact ⟨rfl, hc⟩
  · have hpos : 0 < (rows p).length := List.length_pos_iff.2 h0
    rw [if_neg (by omega), if_neg (by omega), wp_bind]
    refine wp_forLtB (fun i _ => ∀ j a, off rows p + j < i → (rows p)[j]? = some a → a ≠ p) (fun _ => p ∈ rows p) (by omega)
      (fun j a h => by omega) ?_ ?_ ?_
    · intro i _ h1 h2 hi
      obtain ⟨j, rfl⟩ : ∃ j, i = off rows p + j := ⟨i - off rows p, by omega⟩
      have hj : j < (rows p).length := by omega
      have hg := List.getElem?_eq_getElem hj
      rw [wp_bind, wp_eq (hc.head_get p hp j _ hg)]
      split
      · rename_i heq
        rw [wp_pure]
        have := List.getElem_mem hj
        rw [heq] at this; exact this
      · rename_i hne
        rw [wp_pure]
        intro j' a h3 h4
        rcases Nat.lt_or_eq_of_le (show j' ≤ j by omega) with h | rfl
        · exact hi j' a (by omega) h4
        · rw [hg] at h4; rw [← Option.some.inj h4]; exact hne
    · intro _ hi
      dsimp only
      rw [Buf.wp_set]
      have hlast := hc.head_get p hp ((rows p).length - 1) _ (List.getElem?_eq_getElem (by omega))
      have hlt := Buf.lt_of_get hlast
      refine ⟨by omega, rfl, ?_⟩
      have hnot : ¬ (p ∈ rows p ∨ rows p = []) := by
        rintro (h | h)
        · obtain ⟨j, hj⟩ := List.mem_iff_getElem?.1 h
          have : j < (rows p).length := (List.getElem?_eq_some_iff.1 hj).1
          exact hi j p (by omega) hj rfl
        · exact h0 h
      have hsr : selfRow p (rows p) = (rows p).dropLast ++ [p] := by simp [selfRow, hnot]
      rw [hsr]
      refine hc.replaceRow hp (by simp; omega) ?_ ?_ ?_
      · intro a ha
        rcases List.mem_append.1 ha with ha | ha
        · exact hc.range p hp a ((List.dropLast_subset _) ha)
        · simp at ha; omega
      · intro j a hj
        rw [List.getElem?_append] at hj
        split at hj
        · rename_i hjl
          rw [List.length_dropLast] at hjl
          rw [Buf.get_upd_ne _ _ (by omega)]
          rw [List.getElem?_dropLast, if_pos hjl] at hj
          exact hc.head_get p hp j a hj
        · rename_i hjl
          rw [List.length_dropLast] at hjl hj
          have : j - ((rows p).length - 1) = 0 := by
            by_contra hne
            rw [List.getElem?_eq_none (by simp; omega)] at hj; simp at hj
          rw [this] at hj
          simp at hj
          rw [show off rows p + j = off rows p + (rows p).length - 1 by omega, Buf.get_upd_self _ _ (by omega), hj]
      · intro i hi
        rw [hoff] at hi
        rw [Buf.get_upd_ne _ _ (by omega)]
    · intro _ hmem
      dsimp only
      rw [wp_pure, hself (Or.inl hmem)]
      exact ⟨rfl, hc⟩

theorem idxGet_holds {a : Option Arr} {L : List Nat} (h : ArrHolds a L) {i x : Nat} (hx : L[i]? = some x) : idxGet a i = some x := by
  cases a with
  | none =>
    have hL : L = List.range L.length := h
    rw [hL] at hx
    have hi : i < L.length := by
      by_contra hc; rw [List.getElem?_eq_none (by simpa using hc)] at hx; simp at hx
    rw [List.getElem?_range hi] at hx
    exact hx
  | some a => exact h i x hx

theorem selfMatch_spec {n : Nat} {head tail : Buf Nat} {rows : Nat → List Nat} (hc : Csr n head tail rows) {search : Option Arr} {L : List Nat}
    (hs : ArrHolds search L) (hn : L.Nodup) (hL : ∀ x ∈ L, x < n) :
    Wp (selfMatch L.length search head tail) fun h => h.len = head.len ∧ Csr n h tail (selfRows L rows) := by
  unfold selfMatch
  refine wp_forLt (fun i h => h.len = head.len ∧ Csr n h tail (selfRows (L.take i) rows)) (Nat.zero_le _) ⟨rfl, ?_⟩ ?_ ?_
  · have : selfRows (L.take 0) rows = rows := by funext v; simp [selfRows]
    rw [this]; exact hc
  · intro i h _ hi ⟨a1, a2⟩
    have hx := List.getElem?_eq_getElem hi
    have hmem : L[i] ∈ L := List.getElem_mem hi
    rw [wp_bind, wp_eq (idxGet_holds hs hx)]
    refine (selfMatchPoint_spec a2 (hL _ hmem)).mono fun h' ⟨b1, b2⟩ => ⟨b1.trans a1, ?_⟩
    have hnot : L[i] ∉ L.take i := by
      intro hm
      obtain ⟨j, hj, hje⟩ := List.mem_iff_getElem.1 hm
      have hj' : j < i := by simp at hj; omega
      rw [List.getElem_take] at hje
      exact absurd ((List.nodup_iff_injective_get.1 hn) (a₁ := ⟨j, by omega⟩) (a₂ := ⟨i, hi⟩) (by simpa using hje)) (by simp; omega)
    have : (fun v => if v = L[i] then selfRow L[i] (selfRows (L.take i) rows L[i]) else selfRows (L.take i) rows v) = selfRows (L.take (i + 1)) rows := by
      funext v
      have hmt : v ∈ L.take (i + 1) ↔ v ∈ L.take i ∨ v = L[i] := by
        rw [List.take_succ_eq_append_getElem hi, List.mem_append, List.mem_singleton]
      by_cases hv : v = L[i]
      · subst hv; simp only [selfRows, if_true, hnot, if_false, hmt, or_true]
      · simp only [selfRows, hv, if_false, hmt, or_false]
    rw [← this]; exact b2
  · intro h ⟨a1, a2⟩
    rw [List.take_length] at a2
    exact ⟨a1, a2⟩

theorem noLoop_selfRow {v : Nat} {l : List Nat} : (selfRow v l).filter (· ≠ v) = nbrs v l := by
  unfold selfRow nbrs
  by_cases h : v ∈ l
  · simp [h]
  · by_cases h0 : l = []
    · subst h0; simp
    · simp only [h, h0, or_self, if_false, List.filter_append]
      rw [List.filter_eq_self.2]
      · simp
      · intro a ha
        have := (List.dropLast_subset _) ha
        simp; rintro rfl; exact h this

theorem length_nbrs {v : Nat} {l : List Nat} (hn : l.Nodup) : (nbrs v l).length = l.length - 1 := by
  unfold nbrs
  split
  · rename_i h
    have := hn.erase_eq_filter v
    have h2 : l.filter (fun x => decide (x ≠ v)) = l.erase v := by rw [this]; congr 1; funext x; simp [bne, Bool.beq_eq_decide_eq]
    rw [h2, List.length_erase_of_mem h]
  · simp

theorem nodup_nbrs {v : Nat} {l : List Nat} (hn : l.Nodup) : (nbrs v l).Nodup := by
  unfold nbrs
  split
  · exact hn.filter _
  · exact hn.sublist (List.dropLast_sublist l)

theorem nbrs_subset {v : Nat} {l : List Nat} : nbrs v l ⊆ l := by
  unfold nbrs
  split
  · exact fun a ha => (List.mem_filter.1 ha).1
  · exact List.dropLast_subset l

theorem not_mem_nbrs {v : Nat} {l : List Nat} : v ∉ nbrs v l := by
  unfold nbrs
  split
  · simp
  · rename_i h; exact fun hm => h (nbrs_subset (v := v) (by unfold nbrs; rw [if_neg h]; exact hm))

variable {F : Type}

variable [FloatOps F]

theorem arrHolds_range (n : Nat) : ArrHolds none (List.range n) := by
  show List.range n = List.range (List.range n).length
  rw [List.length_range]

theorem ansRows_nil {ans : Nat → Option (List Nat)} {Q : List Nat} {A : Criterion F} {L : List Nat} {k : Nat} {R : Option F} (h : Answers A L k R Q ans) (hk : 0 < k) {v : Nat} :
    ansRows ans v = [] ↔ ans v = none := by
  unfold ansRows
  cases hv : ans v with
  | none => simp
  | some l =>
    have := (h.row v l hv).1
    simp only [Option.getD_some, reduceCtorEq, iff_false]
    rintro rfl
    simp at this; omega

theorem nngSizeArcs_spec {cfg : Cfg} {spi : Spi F} {n : Nat} {A : Criterion F} {dist : Nat → Nat → F} {mayRefuse : Prop} (hs : SpiOk spi n A dist mayRefuse)
    {w : World} {S lenPrimary : Nat} {primary : Option Arr} {Q : List Nat} (rs : Bool) (radius : F) (hpm : n ≤ cfg.pointMax)
    (hq : QueryInput w n (if primary.isNone then n else lenPrimary) primary Q) (hS : 2 ≤ S) (hSn : S ≤ n) (hsz : n * S ≤ cfg.sizeMax) :
    WpM (nngSizeArcs cfg spi n S lenPrimary primary rs radius) w (fun r w' => match r with
      | .error e => FailPost w (fun e => SysCause w (cfg.arcMax < n * S) mayRefuse e ∨
          e = .noSolution ∧ (if rs then some radius else none) ≠ none ∧ ∀ q ∈ Q, A (List.range n) S (if rs then some radius else none) q none) e w'
      | .ok d => w'.fails = w.fails ∧ w'.live = d.own + w.live ∧ w'.err = w.err ∧ d.n = n ∧
          ∃ rows, d.Repr cfg rows ∧ SizeNng A n S (if rs then some radius else none) Q rows ∧ ∃ v < n, rows v ≠ []) := by
  have hQn : Q.length ≤ n := by
    have hnd : Q.Nodup := hq.sorted.imp fun h => Nat.ne_of_lt h
    have := (List.subperm_of_subset hnd (l₂ := List.range n) fun q hqm => List.mem_range.2 (hq.range q hqm)).length_le
    simpa using this
  have hmul : (if primary.isNone then n else lenPrimary) * S ≤ n * S := Nat.mul_le_mul_right S (hq.len ▸ hQn)
  unfold nngSizeArcs
  rw [wpM_bind]
  have hmk := makeNng_spec (cfg := cfg) (search := none) (L := List.range n) (k := S) (outQ := .null) hs rs radius hpm (arrHolds_range n) List.nodup_range
    (fun x hx => List.mem_range.1 hx) (by simp [arrIds]) hq (by omega) (by simpa using hSn) (hmul.trans hsz) (Or.inl rfl) (by simp)
  rw [List.length_range] at hmk
  refine hmk.mono ?_
  rintro (e | out) w1 h
  · dsimp only
    rw [wpM_pure]
    exact h.mono fun hc => Or.inl (hc.imp rfl (fun hb => by omega) id)
  · obtain ⟨ans, h⟩ := h
    dsimp only
    have hids : ∀ i ∈ out.nng.ids, i ∈ w1.live := fun i hi => by rw [h.live]; exact Multiset.mem_add.2 (Or.inl (mem_ids_iff_own.1 hi))
    rw [wpM_bind, wpM_useK]
    refine ⟨hids, ?_⟩
    rw [wp_eq (digraphIsEmpty_spec h.repr)]
    by_cases he : off (ansRows ans) out.nng.n = 0
    · rw [decide_eq_true he, if_pos rfl, wpM_bind]
      refine freeDigraph_spec w.live h.live fun w2 k1 k2 k3 => ?_
      refine wpM_fail fun w3 l1 l2 l3 => ⟨by rw [l1, k1, h.fails], by rw [l2, k2], by rw [l3], Or.inr ⟨rfl, fun hR => ?_, fun q hqm => ?_⟩⟩
      · have hQ0 : Q ≠ [] := by
          intro h0
          have h1 := hq.pos
          rw [← hq.len, h0] at h1
          simp at h1
        obtain ⟨q, hqm⟩ := List.exists_mem_of_ne_nil _ hQ0
        exact h.answers.all hR q hqm ((ansRows_nil h.answers (by omega)).1 (rows_nil_of_off he q (by rw [h.n_eq]; exact hq.range q hqm)))
      have h1 := rows_nil_of_off he q (by rw [h.n_eq]; exact hq.range q hqm)
      have h2 := h.answers.crit q hqm
      rwa [(ansRows_nil h.answers (by omega)).1 h1] at h2
    · rw [decide_eq_false he, if_neg Bool.false_ne_true, wpM_bind, wpM_useK]
      refine ⟨hids, ?_⟩
      have hcsr := h.repr.csr
      rw [h.n_eq] at hcsr
      have hsm := selfMatch_spec hcsr (arrHolds_range n) List.nodup_range (fun x hx => List.mem_range.1 hx)
      rw [List.length_range] at hsm
      refine hsm.mono ?_
      rintro head ⟨a1, a2⟩
      rw [wpM_bind]
      have hrd : ({ out.nng with head := ptrSet out.nng.head head } : Digraph).Repr cfg (selfRows (List.range n) (ansRows ans)) := by
        refine ⟨?_, h.repr.tail_len, ?_, h.repr.vertices, h.repr.arcs, h.repr.arcs_size, ?_⟩
        · show Csr out.nng.n (ptrBuf (ptrSet out.nng.head head)) _ _
          rw [h.n_eq]
          exact a2.of_get (fun _ _ => rfl) (fun i _ => ptrSet_get a1 i)
        · show (ptrBuf (ptrSet out.nng.head head)).len = _
          rw [ptrSet_len a1]; exact h.repr.head_len
        · show _ ↔ ptrSet out.nng.head head = none
          rw [ptrSet_eq_none]; exact h.repr.head_null
      refine (deleteLoops_spec (L := w.live) hrd (by simpa [Digraph.own] using h.live)).mono ?_
      rintro ⟨ec, d⟩ w2 hd
      dsimp only
      have hnf : w1.NoFail ↔ w.NoFail := noFail_congr h.fails
      rcases hd.cause with ⟨b1, b2, b3⟩ | ⟨b1, b2, b3, b4⟩
      · dsimp only at b1 b2
        subst b1
        rw [if_neg (by simp), wpM_pure]
        have hdn : d.n = n := hd.n_eq.trans h.n_eq
        refine ⟨hd.fails.trans h.fails, hd.live, b3.trans h.err, hdn, _, b2, ⟨ans, h.answers, fun v hv => ?_⟩, ?_⟩
        · show (selfRows (List.range n) (ansRows ans) v).filter (· ≠ v) = _
          rw [selfRows, if_pos (List.mem_range.2 hv), noLoop_selfRow]
        · by_contra hc
          push Not at hc
          refine he (off_nil fun v hv => ?_)
          rw [h.n_eq] at hv
          have h1 := hc v hv
          have h2 : noLoopRows (selfRows (List.range n) (ansRows ans)) v = nbrs v (ansRows ans v) := by
            show (selfRows (List.range n) (ansRows ans) v).filter (· ≠ v) = _
            rw [selfRows, if_pos (List.mem_range.2 hv), noLoop_selfRow]
          rw [h2] at h1
          cases hv2 : ans v with
          | none => simp [ansRows, hv2]
          | some l =>
            obtain ⟨r1, r2, r3⟩ := h.answers.row v l hv2
            have : ansRows ans v = l := by simp [ansRows, hv2]
            rw [this] at h1
            have h3 := length_nbrs (v := v) r2
            rw [h1] at h3
            simp at h3; omega
      · dsimp only at b1 b2
        subst b1
        rw [if_pos (by simp), wpM_bind]
        refine freeDigraph_spec w.live hd.live fun w3 k1 k2 k3 => ?_
        rw [wpM_pure]
        exact ⟨by rw [k1, hd.fails, h.fails], k2, by rw [k3, b2], Or.inl (Or.inr (Or.inl ⟨rfl, fun hn => b3 (hnf.2 hn)⟩))⟩

end Scc
