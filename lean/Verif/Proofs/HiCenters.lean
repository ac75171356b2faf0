/-
The centers of a cluster that is broken into two.
-/
import Verif.Proofs.HiBreak
import Verif.Proofs.NngMake

namespace Scc

variable {F : Type} [FloatOps F]

/-- Number of points without the marker. -/
def unmarked (marks : Buf Nat) (marker : Nat) (X : List Nat) : Nat := (X.filter fun x => decide (marks.get x ≠ some marker)).length

theorem unmarked_upd {marks : Buf Nat} {marker y : Nat} {X : List Nat} (hX : X.Nodup) (hy : y ∈ X) (hl : y < marks.len) (hm : marks.get y ≠ some marker) :
    unmarked (marks.upd y marker) marker X + 1 = unmarked marks marker X := by
  unfold unmarked
  have h1 : X.filter (fun x => decide ((marks.upd y marker).get x ≠ some marker)) = (X.filter fun x => decide (marks.get x ≠ some marker)).filter fun x => decide (x ≠ y) := by
    rw [List.filter_filter]
    apply List.filter_congr
    intro x _
    by_cases hxy : x = y
    · subst hxy
      simp [Buf.get_upd_self _ _ hl]
    · rw [Buf.get_upd_ne _ _ hxy]; simp [hxy]
  have hmem : y ∈ X.filter fun x => decide (marks.get x ≠ some marker) := by rw [List.mem_filter]; exact ⟨hy, by simpa using hm⟩
  rw [h1, filter_ne_length (hX.filter _) hmem]
  have := List.length_pos_of_mem hmem
  omega

theorem unmarked_le {marks : Buf Nat} {marker y : Nat} {X : List Nat} : unmarked (marks.upd y marker) marker X ≤ unmarked marks marker X := by
  unfold unmarked
  refine List.Sublist.length_le (List.monotone_filter_right _ fun x hx => ?_)
  by_cases hxy : x = y
  · subst hxy
    by_cases hl : x < marks.len
    · simp [Buf.get_upd_self _ _ hl] at hx
    · rw [Buf.get, if_neg hl]; simp
  · rwa [Buf.get_upd_ne _ _ hxy] at hx

theorem MarksLe.upd {marks : Buf Nat} {marker y : Nat} {X : List Nat} (h : MarksLe marks marker X) (hl : y < marks.len) : MarksLe (marks.upd y marker) marker X := by
  intro x hx
  by_cases hxy : x = y
  · exact ⟨marker, by rw [hxy, Buf.get_upd_self _ _ hl], le_rfl⟩
  · rw [Buf.get_upd_ne _ _ hxy]; exact h x hx

/-- The second center is a farthest point from the first. -/
def GoodCenters (dist : Nat → Nat → F) (X : List Nat) (c1 c2 : Nat) : Prop := c1 ∈ X ∧ c2 ∈ X ∧ ∀ y ∈ X, FloatOps.le (dist c1 y) (dist c1 c2) = true

/-- Two centers have been found, and the second one is marked. Every marked point is still to be checked (`P`) or no point is farther from it than the centers are from each other. -/
structure GoodSt (dist : Nat → Nat → F) (X : List Nat) (marker : Nat) (P : List Nat) (st : CenterSt F) : Prop where
  good : GoodCenters dist X st.center1 st.center2
  max : st.maxDist = dist st.center1 st.center2
  marked : st.marks.get st.center2 = some marker
  checked : ∀ x ∈ X, st.marks.get x = some marker → x ∈ P ∨ ∀ y ∈ X, FloatOps.le (dist x y) st.maxDist = true

/-- Nothing has been checked. -/
def FreshSt (X : List Nat) (marker : Nat) (P : List Nat) (st : CenterSt F) : Prop := st.maxDist = FloatOps.negOne ∧ ∀ x ∈ X, st.marks.get x = some marker → x ∈ P

/-- The marked points of the first array are marked in the second. -/
def KeepsMarks (marker : Nat) (marks marks' : Buf Nat) : Prop := ∀ x, marks.get x = some marker → marks'.get x = some marker

theorem KeepsMarks.upd {marker y : Nat} {marks marks' : Buf Nat} (h : KeepsMarks marker marks marks') (hl : y < marks'.len) : KeepsMarks marker marks (marks'.upd y marker) := by
  intro x hx
  by_cases hxy : x = y
  · rw [hxy, Buf.get_upd_self _ _ hl]
  · rw [Buf.get_upd_ne _ _ hxy]; exact h x hx

/-- The markers of other points are unchanged. -/
structure MarksStep (marks0 : Buf Nat) (marker : Nat) (X : List Nat) (marks : Buf Nat) : Prop where
  len : marks.len = marks0.len
  outside : ∀ x, x ∉ X → marks.get x = marks0.get x
  le : MarksLe marks marker X

theorem MarksStep.upd {marks0 marks : Buf Nat} {marker y : Nat} {X : List Nat} (h : MarksStep marks0 marker X marks) (hy : y ∈ X) : MarksStep marks0 marker X (marks.upd y marker) := by
  obtain ⟨m, hm, -⟩ := h.le y hy
  exact ⟨h.len, fun x hx => by rw [Buf.get_upd_ne _ _ (by rintro rfl; exact hx hy)]; exact h.outside x hx, h.le.upd (Buf.lt_of_get hm)⟩

theorem round_spec {n : Nat} {dist : Nat → Nat → F} (hd : DistLaws n dist) {X Q : List Nat} (hX : X.Nodup) (hXn : ∀ x ∈ X, x < n) {marker : Nat} {marks0 : Buf Nat} {maxI : Buf Nat} {maxD : Buf F}
    (hmax : ∀ (i q : Nat), Q[i]? = some q → ∃ x ∈ X, maxI.get i = some x ∧ maxD.get i = some (dist q x) ∧ ∀ y ∈ X, FloatOps.le (dist q y) (dist q x) = true)
    (hQ : ∀ q ∈ Q, q ∈ X) (hpos : 0 < Q.length) {st : CenterSt F} (hst : ∀ (i q : Nat), Q[i]? = some q → st.toCheck.get i = some q) (hl : Q.length ≤ st.toCheck.len) (hm : MarksStep marks0 marker X st.marks)
    (hc : GoodSt dist X marker Q st ∨ FreshSt X marker Q st) :
    Wp (forLt 0 Q.length { st with count := 0 } (centerStep marker maxI maxD)) fun st' => ∃ Q' : List Nat, st'.count = Q'.length ∧ (∀ q ∈ Q', q ∈ X) ∧ Q'.length ≤ Q.length ∧
      (∀ (i q : Nat), Q'[i]? = some q → st'.toCheck.get i = some q) ∧ st'.toCheck.len = st.toCheck.len ∧ MarksStep marks0 marker X st'.marks ∧
      unmarked st'.marks marker X + Q'.length ≤ unmarked st.marks marker X ∧ GoodSt dist X marker Q' st' ∧ KeepsMarks marker st.marks st'.marks := by
  refine wp_forLt (fun k st' => ∃ Q' : List Nat, st'.count = Q'.length ∧ (∀ q ∈ Q', q ∈ X) ∧ Q'.length ≤ k ∧ (∀ (i q : Nat), Q'[i]? = some q → st'.toCheck.get i = some q) ∧
      (∀ (i q : Nat), k ≤ i → Q[i]? = some q → st'.toCheck.get i = some q) ∧ st'.toCheck.len = st.toCheck.len ∧ MarksStep marks0 marker X st'.marks ∧
      unmarked st'.marks marker X + Q'.length ≤ unmarked st.marks marker X ∧
      (GoodSt dist X marker (Q.drop k ++ Q') st' ∨ k = 0 ∧ FreshSt X marker (Q.drop k ++ Q') st') ∧ KeepsMarks marker st.marks st'.marks) (Nat.zero_le _) ?_ ?_ ?_
  · refine ⟨[], rfl, by simp, le_rfl, by simp, fun i q _ h => hst i q h, rfl, hm, le_rfl, ?_, fun _ h => h⟩
    rw [List.drop_zero, List.append_nil]
    rcases hc with hc | hc
    · exact Or.inl ⟨hc.good, hc.max, hc.marked, hc.checked⟩
    · exact Or.inr ⟨rfl, hc⟩
  · rintro k st' - hk ⟨Q', h1, h2, h3, h4, h5, h6, h7, h8, h9, h10⟩
    have hq := List.getElem?_eq_getElem hk
    have hqX := hQ _ (List.getElem_mem hk)
    obtain ⟨x, hxX, g1, g2, g3⟩ := hmax k _ hq
    have hcm : Wp (centerMax maxI maxD k st') fun st'' => st''.toCheck = st'.toCheck ∧ st''.marks = st'.marks ∧ st''.count = st'.count ∧
        GoodCenters dist X st''.center1 st''.center2 ∧ st''.maxDist = dist st''.center1 st''.center2 ∧ (st''.center2 = x ∨ st'.marks.get st''.center2 = some marker) ∧
        (∀ z ∈ X, st'.marks.get z = some marker → z ∈ Q.drop (k + 1) ++ Q' ∨ ∀ y ∈ X, FloatOps.le (dist z y) st''.maxDist = true) := by
      have hqn := hXn _ hqX
      have hxn := hXn _ hxX
      have hdrop : Q.drop k = Q[k] :: Q.drop (k + 1) := List.drop_eq_getElem_cons hk
      unfold centerMax
      rw [wp_bind, wp_eq g2]
      by_cases hlt : FloatOps.lt st'.maxDist (dist Q[k] x) = true
      · rw [if_pos hlt, wp_bind, wp_eq (h5 k _ le_rfl hq), wp_bind, wp_eq g1, wp_pure]
        refine ⟨rfl, rfl, rfl, ⟨hqX, hxX, g3⟩, rfl, Or.inl rfl, fun z hz hzm => ?_⟩
        dsimp only
        rcases h9 with h9 | ⟨-, -, h9⟩
        · have hle : FloatOps.le st'.maxDist (dist Q[k] x) = true := by
            rw [h9.max] at hlt ⊢
            have hn := hd.num _ _ (hXn _ h9.good.1) (hXn _ h9.good.2.1)
            have hl := hd.order.lt_iff _ _ hn (hd.num _ _ hqn hxn)
            rcases hd.order.total _ _ hn (hd.num _ _ hqn hxn) with h | h
            · exact h
            · rw [hlt, h] at hl; simp at hl
          rcases h9.checked z hz hzm with hP | hP
          · rw [hdrop, List.cons_append, List.mem_cons] at hP
            rcases hP with rfl | hP
            · exact Or.inr g3
            · exact Or.inl hP
          · exact Or.inr fun y hy => hd.order.trans _ _ _ (hP y hy) hle
        · have hP := h9 z hz hzm
          rw [hdrop, List.cons_append, List.mem_cons] at hP
          rcases hP with rfl | hP
          · exact Or.inr g3
          · exact Or.inl hP
      · rw [if_neg hlt, wp_pure]
        have h9' : GoodSt dist X marker (Q.drop k ++ Q') st' := by
          refine h9.resolve_right ?_
          rintro ⟨-, h', -⟩
          rw [h'] at hlt
          exact hlt (hd.pos _ _ hqn hxn)
        refine ⟨rfl, rfl, rfl, h9'.good, h9'.max, Or.inr h9'.marked, fun z hz hzm => ?_⟩
        rcases h9'.checked z hz hzm with hP | hP
        · rw [hdrop, List.cons_append, List.mem_cons] at hP
          rcases hP with rfl | hP
          · refine Or.inr fun y hy => hd.order.trans _ _ _ (g3 y hy) ?_
            have hn := hd.num _ _ (hXn _ h9'.good.1) (hXn _ h9'.good.2.1)
            rw [h9'.max] at hlt ⊢
            have hl := hd.order.lt_iff _ _ hn (hd.num _ _ hqn hxn)
            cases hc : FloatOps.le (dist Q[k] x) (dist st'.center1 st'.center2) with
            | true => rfl
            | false => rw [hc] at hl; simp at hl; exact absurd hl hlt
          · exact Or.inl hP
        · exact Or.inr hP
    unfold centerStep
    rw [wp_bind]
    refine hcm.mono ?_
    rintro st'' ⟨a1, a2, a3, a4, a5, a6, a7⟩
    obtain ⟨m, hm1, hm2⟩ := h7.le x hxX
    rw [wp_bind, wp_eq g1, wp_bind, a2, wp_eq hm1]
    by_cases hmm : m = marker
    · rw [if_neg (by simpa using hmm), wp_pure]
      refine ⟨Q', a3.trans h1, h2, by omega, by rw [a1]; exact h4, by rw [a1]; exact fun i q hi => h5 i q (by omega), by rw [a1]; exact h6, by rw [a2]; exact h7, by rw [a2]; exact h8, Or.inl ⟨a4, a5, ?_, ?_⟩, by rw [a2]; exact h10⟩
      · rw [a2]
        rcases a6 with rfl | a6
        · rw [hm1, hmm]
        · exact a6
      · rw [a2]; exact a7
    · rw [if_pos hmm, wp_bind, Buf.wp_set]
      refine ⟨Buf.lt_of_get hm1, ?_⟩
      rw [wp_bind, Buf.wp_set, a1, a3, h1]
      refine ⟨by omega, ?_⟩
      rw [wp_pure]
      refine ⟨Q' ++ [x], by simp, ?_, by simp; omega, ?_, ?_, h6, h7.upd hxX, ?_, Or.inl ⟨a4, a5, ?_, ?_⟩, h10.upd (Buf.lt_of_get hm1)⟩
      · intro q hq'
        rw [List.mem_append, List.mem_singleton] at hq'
        rcases hq' with hq' | rfl
        · exact h2 q hq'
        · exact hxX
      · intro i q hi
        dsimp only
        rcases Nat.lt_trichotomy i Q'.length with hlt | heq | hgt
        · rw [List.getElem?_append_left hlt] at hi
          rw [Buf.get_upd_ne _ _ (by omega)]; exact h4 i q hi
        · subst heq
          simp at hi; subst hi
          rw [Buf.get_upd_self _ _ (by omega)]
        · rw [List.getElem?_eq_none (by simp; omega)] at hi; cases hi
      · intro i q hi hq'
        dsimp only
        rw [Buf.get_upd_ne _ _ (by omega)]
        exact h5 i q (by omega) hq'
      · have := unmarked_upd hX hxX (Buf.lt_of_get hm1) (by rw [hm1]; simpa using hmm)
        dsimp only
        rw [List.length_append, List.length_singleton]
        omega
      · dsimp only
        rcases a6 with rfl | a6
        · rw [Buf.get_upd_self _ _ (Buf.lt_of_get hm1)]
        · by_cases hcx : st''.center2 = x
          · rw [hcx, Buf.get_upd_self _ _ (Buf.lt_of_get hm1)]
          · rw [Buf.get_upd_ne _ _ hcx]; exact a6
      · intro z hz hzm
        dsimp only at hzm ⊢
        rw [← List.append_assoc, List.mem_append, List.mem_singleton]
        by_cases hzx : z = x
        · exact Or.inl (Or.inr hzx)
        · rw [Buf.get_upd_ne _ _ hzx] at hzm
          exact (a7 z hz hzm).imp_left Or.inl
  · rintro st' ⟨Q', h1, h2, h3, h4, h5, h6, h7, h8, h9, h10⟩
    have h9' := h9.resolve_right (by rintro ⟨h, -⟩; omega)
    rw [List.drop_length, List.nil_append] at h9'
    exact ⟨Q', h1, h2, h3, h4, h6, h7, h8, h9', h10⟩

/-- Failure of a call of the back end. -/
def SearchCause (w : World) (mayRefuse : Prop) (e : ErrorCode) : Prop := e = .distSearch ∧ (¬ w.NoFail ∨ mayRefuse)

theorem centerLoop_spec {n : Nat} {dist : Nat → Nat → F} (hd : DistLaws n dist) {spi : Spi F} {mayRefuse : Prop} (ok : MetricOk spi n dist mayRefuse) {X : List Nat} (hX : X.Nodup)
    (hXn : ∀ x ∈ X, x < n) {ids : HiIds} {marker : Nat} {marks0 : Buf Nat} {obj : spi.MD} {own : Multiset Nat} (hobj : ok.isMD obj X own [ids.store]) {L : Multiset Nat}
    (hids : ∀ i ∈ ids.all, i ∈ L) (fuel : Nat) {w : World} (hw : w.live = own + L) {st : CenterSt F} {maxI : Buf Nat} {maxD : Buf F} {Q : List Nat} (hcount : st.count = Q.length)
    (hQ : ∀ q ∈ Q, q ∈ X) (hst : ∀ (i q : Nat), Q[i]? = some q → st.toCheck.get i = some q) (hl : 100 ≤ st.toCheck.len) (hl2 : 100 ≤ maxI.len) (hl3 : 100 ≤ maxD.len) (hq100 : Q.length ≤ 100)
    (hm : MarksStep marks0 marker X st.marks) (hc : GoodSt dist X marker Q st ∨ 0 < Q.length ∧ FreshSt X marker Q st)
    (hfuel : unmarked st.marks marker X + (if 0 < Q.length then 1 else 0) < fuel) :
    WpM (centerLoop spi ids obj marker fuel st maxI maxD) w fun r w' => w'.fails = w.fails ∧
      match r with
      | .error e => w'.live = L ∧ w'.err.code = e ∧ SearchCause w mayRefuse e
      | .ok (st', maxI', maxD') => w'.live = own + L ∧ w'.err = w.err ∧ st'.toCheck.len = st.toCheck.len ∧ maxI'.len = maxI.len ∧ maxD'.len = maxD.len ∧ MarksStep marks0 marker X st'.marks ∧
          GoodSt dist X marker [] st' ∧ KeepsMarks marker st.marks st'.marks := by
  induction fuel generalizing w st maxI maxD Q with
  | zero => omega
  | succ fuel ih =>
    unfold centerLoop
    by_cases h0 : st.count = 0
    · rw [if_pos h0, wpM_pure]
      have hQ0 : Q = [] := List.length_eq_zero_iff.1 (by omega)
      have hc' := hc.resolve_right (by rintro ⟨h, -⟩; omega)
      rw [hQ0] at hc'
      exact ⟨rfl, hw, rfl, rfl, rfl, rfl, hm, hc', fun _ h => h⟩
    · rw [if_neg h0, wpM_bind, touch, wpM_useK]
      have hsub : ∀ i ∈ ids.all, i ∈ w.live := fun i hi => by rw [hw]; exact Multiset.mem_add.2 (Or.inr (hids i hi))
      refine ⟨fun i hi => hsub i ?_, ?_⟩
      · simp only [HiIds.all, List.mem_cons, List.not_mem_nil, or_false] at hi ⊢; tauto
      rw [wp_some, wpM_bind]
      refine (ok.maxDist obj X own [ids.store] st.count (some ⟨[ids.idx1], st.toCheck⟩) Q maxI maxD w hobj (by rw [hw]; exact Multiset.le_add_right _ _) ?_ hst hcount.symm (by omega)
        (fun q hq => hXn q (hQ q hq)) ?_ (by omega) (by omega)).mono ?_
      · intro i hi
        exact hsub i (by simp [HiIds.all] at hi ⊢; tauto)
      · intro i hi
        exact hsub i (by simp [HiIds.all, arrIds] at hi ⊢; tauto)
      rintro (_ | ⟨mI, mD⟩) w1 ⟨f1, e1, l1, h1⟩
      · dsimp only at h1 ⊢
        rw [wpM_bind]
        refine (ok.maxClose obj X own [ids.store] w1 L hobj (by rw [l1, hw])).mono ?_
        rintro b w2 ⟨f2, e2, l2, -⟩
        refine wpM_fail fun w3 f3 l3 e3 => ?_
        exact ⟨f3.trans (f2.trans f1), l3.trans l2, by rw [e3], rfl, h1⟩
      · dsimp only at h1 ⊢
        obtain ⟨k1, k2, k3⟩ := h1
        rw [wpM_bind, wpM_useK]
        refine ⟨fun i hi => by rw [l1]; exact hsub i hi, ?_⟩
        rw [hcount]
        refine (round_spec hd hX hXn k3 hQ (by omega) hst (by omega) hm (hc.imp_right fun h => h.2)).mono ?_
        rintro st' ⟨Q', q1, q2, q3, q4, q5, q6, q7, q8, q9⟩
        refine (ih (w := w1) (l1.trans hw) (maxI := mI) (maxD := mD) q1 q2 q4 (by omega) (by omega) (by omega) (by omega) q6 (Or.inl q8) ?_).mono ?_
        · split
          · rw [if_pos (by omega)] at hfuel; omega
          · rw [if_pos (by omega)] at hfuel; omega
        · rintro (e | ⟨st'', mI', mD'⟩) w2 ⟨f2, h2⟩
          · refine ⟨f2.trans f1, h2.1, h2.2.1, h2.2.2.1, ?_⟩
            rw [← noFail_congr f1]; exact h2.2.2.2
          · obtain ⟨a1, a2, a3, a4, a5, a6, a7, a8⟩ := h2
            exact ⟨f2.trans f1, a1, a2.trans e1, a3.trans q5, a4.trans k1, a5.trans k2, a6, a7, fun x hx => a8 x (q9 x hx)⟩

/-! ### The first points to check -/

theorem checkCount_le (cfg : Cfg) (size : Nat) : checkCount cfg size ≤ 100 := by
  unfold checkCount hiNumToCheck
  dsimp only
  split <;> omega

theorem checkStep_pos (size : Nat) : 2 ≤ checkStep size := by unfold checkStep; split <;> omega

theorem checkCount_pos {cfg : Cfg} (hcfg : 65535 ≤ cfg.fast16Max) {size : Nat} (hs : 0 < size) : 0 < checkCount cfg size := by
  have hb : (size - 1) / checkStep size ≤ 300 := by
    unfold checkStep hiNumToCheck
    split
    · rename_i h
      have : size < 200 := by omega
      omega
    · rename_i h
      rw [Nat.div_le_iff_le_mul_add_pred (by omega)]
      have : size = 100 * (size / 100) + size % 100 := (Nat.div_add_mod size 100).symm
      have : size % 100 < 100 := Nat.mod_lt _ (by omega)
      have : 300 * (size / 100) = 100 * (size / 100) + 200 * (size / 100) := by ring
      have : size / 100 * 300 = 300 * (size / 100) := Nat.mul_comm _ _
      omega
  unfold checkCount
  dsimp only
  rw [Nat.mod_eq_of_lt (by omega)]
  split <;> simp [hiNumToCheck] at * <;> omega

theorem check_inside {cfg : Cfg} {size i : Nat} (hs : 0 < size) (hi : i < checkCount cfg size) : i * checkStep size < size := by
  have h1 : checkCount cfg size ≤ 1 + (size - 1) / checkStep size := by
    unfold checkCount
    dsimp only
    have := Nat.mod_le (1 + (size - 1) / checkStep size) (cfg.fast16Max + 1)
    split <;> omega
  have h2 : i ≤ (size - 1) / checkStep size := by omega
  have h3 : i * checkStep size ≤ (size - 1) / checkStep size * checkStep size := Nat.mul_le_mul_right _ h2
  have h4 := Nat.div_mul_le_self (size - 1) (checkStep size)
  omega

/-- Half of the points are checked first, or 100. -/
theorem checkCount_eq {cfg : Cfg} (hcfg : 65535 ≤ cfg.fast16Max) {size : Nat} (hs : 0 < size) : min 100 ((size + 1) / 2) ≤ checkCount cfg size := by
  have hb : (size - 1) / checkStep size ≤ 300 := by
    unfold checkStep hiNumToCheck
    split
    · rename_i h
      have : size < 200 := by omega
      omega
    · rename_i h
      rw [Nat.div_le_iff_le_mul_add_pred (by omega)]
      have : size = 100 * (size / 100) + size % 100 := (Nat.div_add_mod size 100).symm
      have : size % 100 < 100 := Nat.mod_lt _ (by omega)
      have : size / 100 * 300 = 300 * (size / 100) := Nat.mul_comm _ _
      omega
  unfold checkCount
  dsimp only
  rw [Nat.mod_eq_of_lt (by omega)]
  have hge : min 100 ((size + 1) / 2) ≤ 1 + (size - 1) / checkStep size := by
    unfold checkStep hiNumToCheck
    split
    · omega
    · rename_i h
      have : 99 ≤ (size - 1) / (size / 100) := by
        rw [Nat.le_div_iff_mul_le (by omega)]
        have : size = 100 * (size / 100) + size % 100 := (Nat.div_add_mod size 100).symm
        omega
      omega
  split <;> simp only [hiNumToCheck] at * <;> omega

theorem firstToCheck_spec {store toCheck marks : Buf Nat} {off step count marker : Nat} {X : List Nat} (hs : Seg store off X) (hin : ∀ i, i < count → i * step < X.length) (hl : count ≤ toCheck.len)
    {marks0 : Buf Nat} (hm : MarksStep marks0 marker X marks) (hun : unmarked marks marker X ≤ X.length) (hX : X.Nodup) (hfresh : ∀ x ∈ X, marks.get x ≠ some marker) :
    Wp (firstToCheck store off step count marker toCheck marks) fun r => ∃ Q : List Nat, Q.length = count ∧ (∀ q ∈ Q, q ∈ X) ∧ (∀ (i q : Nat), Q[i]? = some q → r.1.get i = some q) ∧ r.1.len = toCheck.len ∧
      MarksStep marks0 marker X r.2 ∧ unmarked r.2 marker X + (if 0 < count then 1 else 0) ≤ X.length ∧ (∀ x ∈ X, r.2.get x = some marker ↔ x ∈ Q) ∧ (0 < step → Q.Nodup) := by
  unfold firstToCheck
  refine wp_forLt (fun k r => ∃ Q : List Nat, Q.length = k ∧ (∀ q ∈ Q, q ∈ X) ∧ (∀ (i q : Nat), Q[i]? = some q → r.1.get i = some q) ∧ r.1.len = toCheck.len ∧
      MarksStep marks0 marker X r.2 ∧ unmarked r.2 marker X + (if 0 < k then 1 else 0) ≤ X.length ∧ (k = 0 → r.2 = marks) ∧
      (∀ x ∈ X, r.2.get x = some marker ↔ x ∈ Q) ∧ ∀ (i : Nat), i < k → Q[i]? = X[i * step]?) (Nat.zero_le _) ?_ ?_ ?_
  · exact ⟨[], rfl, by simp, by simp, rfl, hm, by simpa using hun, fun _ => rfl, fun x hx => by simpa using hfresh x hx, by omega⟩
  · rintro k ⟨tc, mk⟩ - hk ⟨Q, h1, h2, h3, h4, h5, h6, h7, h8, h9⟩
    dsimp only at h3 h4 h5 h6 h7 ⊢
    have hlt := hin k hk
    have hxX : X[k * step] ∈ X := List.getElem_mem hlt
    rw [wp_bind, wp_eq (hs _ _ (List.getElem?_eq_getElem hlt)), wp_bind, Buf.wp_set]
    refine ⟨by omega, ?_⟩
    obtain ⟨m, hm1, -⟩ := h5.le _ hxX
    rw [wp_bind, Buf.wp_set]
    refine ⟨Buf.lt_of_get hm1, ?_⟩
    rw [wp_pure]
    refine ⟨Q ++ [X[k * step]], by simp [h1], ?_, ?_, h4, h5.upd hxX, ?_, by omega, ?_, ?_⟩
    · intro q hq
      rw [List.mem_append, List.mem_singleton] at hq
      rcases hq with hq | rfl
      · exact h2 q hq
      · exact hxX
    · intro i q hi
      dsimp only
      rcases Nat.lt_trichotomy i Q.length with hlt' | heq | hgt
      · rw [List.getElem?_append_left hlt'] at hi
        rw [Buf.get_upd_ne _ _ (by omega)]; exact h3 i q hi
      · subst heq
        simp at hi; subst hi
        rw [Buf.get_upd, if_pos h1, if_pos (by omega)]
      · rw [List.getElem?_eq_none (by simp; omega)] at hi; cases hi
    · dsimp only
      by_cases hk0 : k = 0
      · have hmk := h7 hk0
        subst hmk
        have := unmarked_upd hX hxX (Buf.lt_of_get hm1) (hfresh _ hxX)
        rw [if_pos (by omega)]; omega
      · have := unmarked_le (marks := mk) (marker := marker) (y := X[k * step]) (X := X)
        rw [if_pos (by omega)] at h6 ⊢
        omega
    · intro x hx
      dsimp only
      rw [List.mem_append, List.mem_singleton]
      by_cases hxk : x = X[k * step]
      · rw [hxk, Buf.get_upd_self _ _ (Buf.lt_of_get hm1)]; simp
      · rw [Buf.get_upd_ne _ _ hxk, h8 x hx]; simp [hxk]
    · intro i hi
      rcases Nat.lt_or_ge i k with hlt' | hge
      · rw [List.getElem?_append_left (by omega)]; exact h9 i hlt'
      · have : i = k := by omega
        subst this
        rw [List.getElem?_append_right (by omega), List.getElem?_eq_getElem hlt]
        simp [h1]
  · rintro r ⟨Q, h1, h2, h3, h4, h5, h6, -, h8, h9⟩
    refine ⟨Q, h1, h2, h3, h4, h5, h6, h8, fun hstep => ?_⟩
    rw [List.nodup_iff_getElem?_ne_getElem?]
    intro i j hij hj
    rw [h9 i (by omega), h9 j (by omega)]
    exact List.nodup_iff_getElem?_ne_getElem?.1 hX _ _ (Nat.mul_lt_mul_of_pos_right hij hstep) (hin j (by omega))

/-! ### The centers -/

theorem arrHolds_drop {store : Buf Nat} {off : Nat} {X : List Nat} {ids : List Nat} (h : Seg store off X) : ArrHolds (some ⟨ids, store.drop off⟩) X := by
  intro i x hx
  show (store.drop off).get i = some x
  rw [Buf.get_drop']; exact h i x hx

theorem findCenters_spec {cfg : Cfg} (hcfg : 65535 ≤ cfg.fast16Max) {n : Nat} {dist : Nat → Nat → F} (hd : DistLaws n dist) {spi : Spi F} {mayRefuse : Prop} (ok : MetricOk spi n dist mayRefuse) {ids : HiIds}
    {S : Nat} (hS : 2 ≤ S) {X : List Nat} {off mk : Nat} {b : HiBufs F} (h : BreakPre cfg n S X off mk b) {w : World} (hids : ∀ i ∈ ids.all, i ∈ w.live) :
    WpM (findCenters cfg spi ids ⟨X.length, mk, some off⟩ b) w fun r w' => w'.fails = w.fails ∧ w'.live = w.live ∧
      match r with
      | .error e => w'.err.code = e ∧ SearchCause w mayRefuse e
      | .ok (c, b', c1, c2) => w'.err = w.err ∧ ∃ mk', c = ⟨X.length, mk', some off⟩ ∧ BreakPre cfg n S X off mk' b' ∧ SameLens b b' ∧ b'.store = b.store ∧
          (∀ x, x ∉ X → b'.marks.get x = b.marks.get x) ∧ Centers dist X c1 c2 := by
  have hX := h.nodup
  have hpos : 0 < X.length := by have := h.size; omega
  have hi1 := h.idx1
  unfold findCenters
  rw [wpM_bind, wpM_useK]
  refine ⟨hids, ?_⟩
  rw [wp_bind]
  refine (nextMarker_spec (by omega) h.seg h.marks h.marker).mono ?_
  rintro ⟨c, marks⟩ ⟨marker, rfl, m2, m3, m4, m5⟩
  dsimp only at m3 m4 m5 ⊢
  rw [wp_bind, wp_eq rfl, wp_bind]
  have hstep : MarksStep b.marks marker X marks := ⟨m3, m4, fun x hx => by obtain ⟨m, h1, h2⟩ := m5 x hx; exact ⟨m, h1, h2.le⟩⟩
  have hcount := checkCount_le cfg X.length
  have hcpos := checkCount_pos hcfg hpos
  refine (firstToCheck_spec (toCheck := b.idx1) (count := checkCount cfg X.length) (step := checkStep X.length) h.seg (fun i hi => check_inside hpos hi) (by omega) hstep (List.length_filter_le _ _) hX ?_).mono ?_
  · intro x hx
    obtain ⟨m, h1, h2⟩ := m5 x hx
    rw [h1]; simp; omega
  rintro ⟨tc, marks1⟩ ⟨Q, q1, q2, q3, q4, q5, q6, q7, q8⟩
  dsimp only at q3 q4 q5 q6 q7 ⊢
  rw [wp_pure]
  dsimp only
  rw [wpM_bind]
  refine (ok.maxInit X.length (some ⟨[ids.store], b.store.drop off⟩) X w (arrHolds_drop h.seg) rfl hpos hX h.range (fun i hi => hids i ?_)).mono ?_
  · simp [HiIds.all, arrIds] at hi ⊢; tauto
  rintro (_ | obj) w1 ⟨f1, e1, h1⟩
  · dsimp only at h1 ⊢
    refine wpM_fail fun w2 f2 l2 e2 => ?_
    exact ⟨f2.trans f1, l2.trans h1.1, by rw [e2], rfl, h1.2⟩
  · dsimp only at h1 ⊢
    obtain ⟨own, hown, hl⟩ := h1
    rw [wpM_bind]
    refine (centerLoop_spec hd ok hX h.range (marks0 := b.marks) hown hids (X.length + 1) hl (Q := Q) q1.symm q2 q3 (by show 100 ≤ tc.len; omega) h.idx2.2 h.dists.2 (by omega) q5 (Or.inr ⟨by omega, rfl, fun x hx h => (q7 x hx).1 h⟩) ?_).mono ?_
    · rw [q1]; dsimp only; omega
    · rintro (e | ⟨st, mI, mD⟩) w2 ⟨f2, h2⟩
      · dsimp only at h2 ⊢
        rw [wpM_pure]
        exact ⟨f2.trans f1, h2.1, h2.2.1, h2.2.2.1, by rw [← noFail_congr f1]; exact h2.2.2.2⟩
      · dsimp only at h2 ⊢
        obtain ⟨a1, a2, a3, a4, a5, a6, a7, a8⟩ := h2
        have hcheck : ∀ x ∈ X, st.marks.get x = some marker → ∀ y ∈ X, FloatOps.le (dist x y) (dist st.center1 st.center2) = true := by
          intro x hx hxm
          have := (a7.checked x hx hxm).resolve_left (by simp)
          rwa [a7.max] at this
        have hcent : Centers dist X st.center1 st.center2 :=
          ⟨a7.good.1, a7.good.2.1, a7.good.2.2, hcheck _ a7.good.2.1 a7.marked, Q, q8 (by have := checkStep_pos X.length; omega), q2, by rw [q1]; exact checkCount_eq hcfg hpos,
            fun q hq => hcheck q (q2 q hq) (a8 q ((q7 q (q2 q hq)).2 hq))⟩
        rw [wpM_bind]
        refine (ok.maxClose obj X own [ids.store] w2 w.live hown a1).mono ?_
        rintro bb w3 ⟨f3, e3, l3, h3⟩
        by_cases hb : bb = true
        · rw [if_pos hb, wpM_pure]
          refine ⟨f3.trans (f2.trans f1), l3, e3.trans (a2.trans e1), marker, rfl, ?_, ?_, rfl, a6.outside, hcent⟩
          · exact ⟨hX, h.range, h.seg, h.fit, a6.le, m2, h.size, by dsimp only; rw [a3, q4]; exact h.idx1, by dsimp only; rw [a4]; exact h.idx2, by dsimp only; rw [a5]; exact h.dists, h.edges1, h.edges2⟩
          · exact ⟨rfl, a3.trans q4, a4, a5, a6.len, rfl, rfl⟩
        · rw [if_neg hb]
          refine wpM_fail fun w4 f4 l4 e4 => ?_
          refine ⟨f4.trans (f3.trans (f2.trans f1)), l4.trans l3, by rw [e4], rfl, ?_⟩
          have := h3 (by simpa using hb)
          rwa [noFail_congr (f2.trans f1)] at this

/-! ### Breaking a cluster -/

theorem breakCluster_spec {cfg : Cfg} (hcfg : 65535 ≤ cfg.fast16Max) {n : Nat} {dist : Nat → Nat → F} (hd : DistLaws n dist) {hi : HiEnv F} (hhi : hi.Ok) {spi : Spi F} {mayRefuse : Prop}
    (ok : MetricOk spi n dist mayRefuse) {ids : HiIds} {S : Nat} (hS : 2 ≤ S) (hS32 : 2 * S < 2 ^ 32) (batch : Bool) {X : List Nat} {off mk : Nat} {b : HiBufs F} (h : BreakPre cfg n S X off mk b) {w : World}
    (hids : ∀ i ∈ ids.all, i ∈ w.live) :
    WpM (breakCluster cfg hi spi ids S batch ⟨X.length, mk, some off⟩ b) w fun r w' => w'.fails = w.fails ∧ w'.live = w.live ∧
      match r with
      | .error e => w'.err.code = e ∧ SearchCause w mayRefuse e
      | .ok r => w'.err = w.err ∧ ∃ c1 c2 A B, Centers dist X c1 c2 ∧ Halves S batch dist X c1 c2 A B ∧ BreakPost cfg X off b A B r := by
  unfold breakCluster
  rw [wpM_bind]
  refine (findCenters_spec hcfg hd ok hS h hids).mono ?_
  rintro (e | ⟨c, b', c1, c2⟩) w1 ⟨f1, l1, h1⟩
  · dsimp only at h1 ⊢
    rw [wpM_pure]
    exact ⟨f1, l1, h1⟩
  · dsimp only at h1 ⊢
    obtain ⟨e1, mk', rfl, hb', hsame, hstore, hmout, hgood⟩ := h1
    have hids1 : ∀ i ∈ ids.all, i ∈ w1.live := fun i hi => by rw [l1]; exact hids i hi
    rw [wpM_bind, wpM_useK]
    refine ⟨by simp, ?_⟩
    rw [wp_eq rfl, wpM_bind, touch, wpM_useK]
    refine ⟨fun i hi => hids1 i (by simp [HiIds.all] at hi ⊢; tauto), ?_⟩
    rw [wp_some, wpM_bind]
    dsimp only
    refine (ok.distRows 2 (some ⟨[], Buf.ofList [c1, c2]⟩) [c1, c2] X.length (some ⟨[ids.store], b'.store.drop off⟩) X b'.dists w1 ?_ rfl (arrHolds_drop hb'.seg) rfl ?_ h.range (by omega)
      (by have := h.size; omega) (by simp [arrIds]) (fun i hi => hids1 i (by simp [HiIds.all, arrIds] at hi ⊢; tauto)) hb'.dists.1).mono ?_
    · intro i x hx
      exact (Buf.get_ofList _ _).trans hx
    · intro q hq
      simp only [List.mem_cons, List.not_mem_nil, or_false] at hq
      rcases hq with rfl | rfl
      · exact h.range _ hgood.mem1
      · exact h.range _ hgood.mem2
    rintro (_ | dists) w2 ⟨f2, e2, l2, h2⟩
    · dsimp only at h2 ⊢
      refine wpM_fail fun w3 f3 l3 e3 => ?_
      refine ⟨f3.trans (f2.trans f1), l3.trans (l2.trans l1), by rw [e3], rfl, ?_⟩
      rwa [noFail_congr f1] at h2
    · dsimp only at h2 ⊢
      obtain ⟨d1, d2⟩ := h2
      rw [wpM_bind, wpM_useK]
      refine ⟨fun i hi => by rw [l2]; exact hids1 i hi, ?_⟩
      have hpre : BreakPre cfg n S X off mk' { b' with dists := dists } :=
        ⟨hb'.nodup, hb'.range, hb'.seg, hb'.fit, hb'.marks, hb'.marker, hb'.size, hb'.idx1, hb'.idx2, by dsimp only; rw [d1]; exact hb'.dists, hb'.edges1, hb'.edges2⟩
      refine (splitCluster_spec (by omega) hd hhi hS hS32 batch hpre hgood.mem1 hgood.mem2 (fun i x hx => ?_) (fun i x hx => ?_)).mono ?_
      · have := d2 0 i c1 x rfl hx
        simpa using this
      · have := d2 1 i c2 x rfl hx
        simpa using this
      · rintro r ⟨A, B, hh, hp⟩
        rw [wpM_pure]
        refine ⟨f2.trans f1, l2.trans l1, e2.trans e1, c1, c2, A, B, hgood, hh, hp.items, hp.seg1, hp.seg2, ?_, ?_, ?_⟩
        · intro i hi
          rw [hp.outside i hi]
          show b'.store.get i = _
          rw [hstore]
        · intro x hx
          rw [hp.moutside x hx]; exact hmout x hx
        · have hl := hp.lens
          exact ⟨hl.store.trans hsame.store, hl.idx1.trans hsame.idx1, hl.idx2.trans hsame.idx2, hl.dists.trans (d1.trans hsame.dists), hl.marks.trans hsame.marks, hl.edges1.trans hsame.edges1, hl.edges2.trans hsame.edges2⟩

end Scc
