/-
`scc_get_clustering_stats`: what the computed numbers mean.
-/
import Verif.Proofs.Stats
import Verif.Proofs.Objects

namespace Scc

variable {F : Type} [FloatOps F]

/-! ### Fields -/

/-- The statistics after the second loop has seen the clusters below `i`. -/
structure SumsTo (dist : Nat → Nat → F) (b : Buf Int) (n i : Nat) (st0 st : Stats F) : Prop where
  rest : st = { st0 with sumDists := st.sumDists, minDist := st.minDist, maxDist := st.maxDist, avgMin := st.avgMin, avgMax := st.avgMax, avgWeighted := st.avgWeighted, avgUnweighted := st.avgUnweighted }
  sumDists : st.sumDists = clusterSum (clustersFrom b n i 2) fun c => sumOf (clusterDists dist b n c)
  avgMin : st.avgMin = clusterSum (clustersFrom b n i 2) fun c => leastOf (clusterDists dist b n c)
  avgMax : st.avgMax = clusterSum (clustersFrom b n i 2) fun c => greatestOf (clusterDists dist b n c)
  avgWeighted : st.avgWeighted = clusterSum (clustersFrom b n i 2) fun c =>
    FloatOps.div (FloatOps.mul (FloatOps.ofNat (members b n c).length) (sumOf (clusterDists dist b n c))) (FloatOps.ofNat (clusterDists dist b n c).length)
  avgUnweighted : st.avgUnweighted = clusterSum (clustersFrom b n i 2) fun c => FloatOps.div (sumOf (clusterDists dist b n c)) (FloatOps.ofNat (clusterDists dist b n c).length)

theorem clusterSum_snoc (cs : List Nat) (c : Nat) (f : Nat → F) : clusterSum (cs ++ [c]) f = FloatOps.add (clusterSum cs f) (f c) := by
  simp [clusterSum, List.foldl_append]

theorem sumsTo_foldl (dist : Nat → Nat → F) (b : Buf Int) (n k : Nat) {st0 : Stats F} (h0 : st0.sumDists = FloatOps.zero ∧ st0.avgMin = FloatOps.zero ∧ st0.avgMax = FloatOps.zero ∧
    st0.avgWeighted = FloatOps.zero ∧ st0.avgUnweighted = FloatOps.zero) : SumsTo dist b n k st0 ((List.range k).foldl (clusterInto dist b n) st0) := by
  induction k with
  | zero =>
    obtain ⟨h1, h2, h3, h4, h5⟩ := h0
    exact ⟨rfl, h1, h2, h3, h4, h5⟩
  | succ i ih =>
    rw [List.range_succ, List.foldl_append, List.foldl_cons, List.foldl_nil]
    revert ih
    generalize (List.range i).foldl (clusterInto dist b n) st0 = st
    intro ih
    unfold clusterInto
    by_cases h2 : (members b n i).length < 2
    · have hc : clustersFrom b n (i + 1) 2 = clustersFrom b n i 2 := by rw [clustersFrom_succ, if_neg (by omega), List.append_nil]
      rw [if_pos h2]
      by_cases h1 : (members b n i).length = 1
      · rw [if_pos h1]
        refine ⟨?_, ?_, ?_, ?_, ?_, ?_⟩
        · rw [ih.rest]
        all_goals rw [hc]
        exacts [ih.sumDists, ih.avgMin, ih.avgMax, ih.avgWeighted, ih.avgUnweighted]
      · rw [if_neg h1]
        refine ⟨ih.rest, ?_, ?_, ?_, ?_, ?_⟩
        all_goals rw [hc]
        exacts [ih.sumDists, ih.avgMin, ih.avgMax, ih.avgWeighted, ih.avgUnweighted]
    · have hc : clustersFrom b n (i + 1) 2 = clustersFrom b n i 2 ++ [i] := by rw [clustersFrom_succ, if_pos (by omega)]
      rw [if_neg h2]
      unfold addCluster
      refine ⟨?_, ?_, ?_, ?_, ?_, ?_⟩
      · rw [ih.rest]
      all_goals rw [hc, clusterSum_snoc]
      · rw [← ih.sumDists]
      · rw [← ih.avgMin]
      · rw [← ih.avgMax]
      · rw [← ih.avgWeighted]
      · rw [← ih.avgUnweighted]

/-- Number of points with a cluster. -/
theorem startOf_assigned {cfg : Cfg} (hcfg : cfg.Valid) {b : Buf Int} {n k : Nat} (hk : k ≤ cfg.clabelMax) (hv : ValidLabels cfg b n k) :
    startOf b n k = ((List.range n).filter fun v => decide (b.get v ≠ some cfg.na)).length := by
  have hperm : ((List.range k).flatMap (members b n)).Perm ((List.range n).filter fun v => decide (b.get v ≠ some cfg.na)) := by
    refine (List.perm_ext_iff_of_nodup ?_ (List.nodup_range.filter _)).2 fun v => ?_
    · rw [List.nodup_flatMap]
      refine ⟨fun c _ => nodup_members, List.nodup_range.imp fun {a c} hac => ?_⟩
      intro v h1 h2
      rw [mem_members] at h1 h2
      have := h1.2.symm.trans h2.2
      simp only [Option.some.injEq, Int.ofNat_inj] at this
      exact hac (by omega)
    · simp only [List.mem_flatMap, List.mem_range, mem_members, List.mem_filter, decide_eq_true_eq]
      constructor
      · rintro ⟨c, hc, h1, h2⟩
        refine ⟨h1, fun h => ?_⟩
        rw [h] at h2
        exact na_ne hcfg hk hc (Option.some.inj h2).symm
      · rintro ⟨h1, h2⟩
        rcases hv v h1 with h | ⟨c, hc, h⟩
        · exact absurd h h2
        · exact ⟨c, hc, h1, h⟩
  rw [← hperm.length_eq]
  clear hperm hv
  induction k with
  | zero => rfl
  | succ k ih =>
    rw [startOf_succ, ih (by omega), List.range_succ, List.flatMap_append, List.length_append]
    simp

theorem computed_statsAre {cfg : Cfg} (hcfg : cfg.Valid) {dist : Nat → Nat → F} {n k : Nat} {b : Buf Int} (hk : k ≤ cfg.clabelMax) (hv : ValidLabels cfg b n k) {s : Stats F} (h : Computed dist n k b s) :
    StatsAre cfg dist n k b s ∧ (clustersFrom b n k 1 = [] → s = UnpopulatedStats n k) := by
  obtain ⟨st, hst, rfl⟩ := h
  have hass := hst.assigned.trans (startOf_assigned hcfg hk hv)
  have hp := hst.populated
  by_cases h0 : st.populated = 0
  · rw [if_pos h0]
    have he : clustersFrom b n k 1 = [] := List.length_eq_zero_iff.1 (hp ▸ h0)
    have he2 : clustersFrom b n k 2 = [] := by
      rw [List.eq_nil_iff_forall_not_mem] at he ⊢
      intro c hc
      rw [mem_clustersFrom] at hc
      exact he c (mem_clustersFrom.2 ⟨hc.1, by omega⟩)
    have hk0 : startOf b n k = 0 := by
      have hm : ∀ c, c < k → (members b n c).length = 0 := by
        intro c hc
        by_contra hcon
        rw [List.eq_nil_iff_forall_not_mem] at he
        exact he c (mem_clustersFrom.2 ⟨hc, by omega⟩)
      clear hst hass hp he he2 hv hk
      induction k with
      | zero => rfl
      | succ k ih => rw [startOf_succ, hm k (by omega), ih (fun c hc => hm c (by omega))]
    refine ⟨⟨?_, ?_, hass, hp, ⟨hst.minSize.1, hst.minSize.2.2.1⟩, ⟨hst.maxSize.1, hst.maxSize.2.1⟩, fun h => absurd he h, ?_, fun h => absurd he h, fun h => absurd he h, fun h => absurd he h, fun h => absurd he h⟩, fun _ => ?_⟩
    · rw [hst.rest]; rfl
    · rw [hst.rest]; rfl
    · rw [he2, hst.rest]; rfl
    · rw [hst.rest, h0, hst.assigned, hk0, hst.minSize.2.2.2 he, hst.maxSize.2.2 he]; rfl
  · rw [if_neg h0]
    have hs0 : st.sumDists = FloatOps.zero ∧ st.avgMin = FloatOps.zero ∧ st.avgMax = FloatOps.zero ∧ st.avgWeighted = FloatOps.zero ∧ st.avgUnweighted = FloatOps.zero := by
      rw [hst.rest]; exact ⟨rfl, rfl, rfl, rfl, rfl⟩
    have h := sumsTo_foldl dist b n k hs0
    have hnp : st.numPoints = n := by rw [hst.rest]; rfl
    have hnc : st.numClusters = k := by rw [hst.rest]; rfl
    revert h
    generalize (List.range k).foldl (clusterInto dist b n) st = t
    intro h
    have r1 : t.numPoints = st.numPoints := by rw [h.rest]
    have r2 : t.numClusters = st.numClusters := by rw [h.rest]
    have r3 : t.numAssigned = st.numAssigned := by rw [h.rest]
    have r4 : t.populated = st.populated := by rw [h.rest]
    have r5 : t.minSize = st.minSize := by rw [h.rest]
    have r6 : t.maxSize = st.maxSize := by rw [h.rest]
    refine ⟨⟨r1.trans hnp, r2.trans hnc, r3.trans hass, r4.trans hp, ?_, ?_, fun _ => rfl, h.sumDists, fun _ => ?_, fun _ => ?_, fun _ => ?_, fun _ => ?_⟩, fun he => ?_⟩
    · show (∀ c ∈ _, t.minSize ≤ _) ∧ (_ → ∃ c ∈ _, t.minSize = _)
      rw [r5]; exact ⟨hst.minSize.1, hst.minSize.2.2.1⟩
    · show (∀ c ∈ _, _ ≤ t.maxSize) ∧ (_ → ∃ c ∈ _, t.maxSize = _)
      rw [r6]; exact ⟨hst.maxSize.1, hst.maxSize.2.1⟩
    · rw [← h.avgMin]; rfl
    · rw [← h.avgMax]; rfl
    · rw [← h.avgWeighted]; rfl
    · rw [← h.avgUnweighted]; rfl
    · exact absurd (by rw [hp, he]; rfl) h0

/-! ### Extremes -/

theorem least_spec (hF : FloatLaws F) {l : List F} (hnum : ∀ d ∈ l, IsNum d) (hne : l ≠ []) : leastOf l ∈ l ∧ ∀ d ∈ l, FloatOps.le (leastOf l) d = true := by
  obtain ⟨x, xs, rfl⟩ := List.exists_cons_of_ne_nil hne
  clear hne
  simp only [leastOf]
  induction xs using List.reverseRecOn with
  | nil =>
    refine ⟨by simp, fun d hd => ?_⟩
    rw [List.mem_singleton.1 hd]
    exact hnum x (by simp)
  | append_singleton xs y ih =>
    rw [List.foldl_append, List.foldl_cons, List.foldl_nil]
    have ih := ih (fun d hd => hnum d (by rw [← List.cons_append]; exact List.mem_append_left _ hd))
    revert ih
    generalize xs.foldl (fun m d => if FloatOps.lt d m then d else m) x = m
    rintro ⟨hm, hle⟩
    have hnm : IsNum m := hnum m (by rw [← List.cons_append]; exact List.mem_append_left _ hm)
    have hny : IsNum y := hnum y (by simp)
    rw [← List.cons_append]
    by_cases hlt : FloatOps.lt y m = true
    · rw [if_pos hlt]
      refine ⟨by simp, fun d hd => ?_⟩
      rw [hF.lt_iff _ _ hny hnm] at hlt
      have hym : FloatOps.le y m = true := (hF.total y m hny hnm).resolve_right (by simp [hlt])
      rcases List.mem_append.1 hd with hd | hd
      · exact hF.trans _ _ _ hym (hle d hd)
      · rw [List.mem_singleton.1 hd]; exact hny
    · rw [if_neg hlt]
      refine ⟨List.mem_append_left _ hm, fun d hd => ?_⟩
      rcases List.mem_append.1 hd with hd | hd
      · exact hle d hd
      · rw [List.mem_singleton.1 hd]
        rw [hF.lt_iff _ _ hny hnm] at hlt
        simpa using hlt

theorem greatest_spec (hF : FloatLaws F) {l : List F} (hnum : ∀ d ∈ l, IsNum d) (hne : l ≠ []) : greatestOf l ∈ l ∧ ∀ d ∈ l, FloatOps.le d (greatestOf l) = true := by
  obtain ⟨x, xs, rfl⟩ := List.exists_cons_of_ne_nil hne
  clear hne
  simp only [greatestOf]
  induction xs using List.reverseRecOn with
  | nil =>
    refine ⟨by simp, fun d hd => ?_⟩
    rw [List.mem_singleton.1 hd]
    exact hnum x (by simp)
  | append_singleton xs y ih =>
    rw [List.foldl_append, List.foldl_cons, List.foldl_nil]
    have ih := ih (fun d hd => hnum d (by rw [← List.cons_append]; exact List.mem_append_left _ hd))
    revert ih
    generalize xs.foldl (fun m d => if FloatOps.lt m d then d else m) x = m
    rintro ⟨hm, hle⟩
    have hnm : IsNum m := hnum m (by rw [← List.cons_append]; exact List.mem_append_left _ hm)
    have hny : IsNum y := hnum y (by simp)
    rw [← List.cons_append]
    by_cases hlt : FloatOps.lt m y = true
    · rw [if_pos hlt]
      refine ⟨by simp, fun d hd => ?_⟩
      rw [hF.lt_iff _ _ hnm hny] at hlt
      have hym : FloatOps.le m y = true := (hF.total m y hnm hny).resolve_right (by simp [hlt])
      rcases List.mem_append.1 hd with hd | hd
      · exact hF.trans _ _ _ (hle d hd) hym
      · rw [List.mem_singleton.1 hd]; exact hny
    · rw [if_neg hlt]
      refine ⟨List.mem_append_left _ hm, fun d hd => ?_⟩
      rcases List.mem_append.1 hd with hd | hd
      · exact hle d hd
      · rw [List.mem_singleton.1 hd]
        rw [hF.lt_iff _ _ hnm hny] at hlt
        simpa using hlt

omit [FloatOps F] in
theorem mem_upperPairs_mem {l : List Nat} {p : Nat × Nat} (h : p ∈ upperPairs l) : p.1 ∈ l ∧ p.2 ∈ l := by
  induction l with
  | nil => simp [upperPairs] at h
  | cons x xs ih =>
    rw [upperPairs, List.mem_append, List.mem_map] at h
    rcases h with ⟨y, hy, rfl⟩ | h
    · exact ⟨by simp, by simp [hy]⟩
    · exact ⟨List.mem_cons_of_mem _ (ih h).1, List.mem_cons_of_mem _ (ih h).2⟩

omit [FloatOps F] in
theorem mem_upperPairs_ne {l : List Nat} (hl : l.Nodup) {p : Nat × Nat} (h : p ∈ upperPairs l) : p.1 ≠ p.2 := by
  induction l with
  | nil => simp [upperPairs] at h
  | cons x xs ih =>
    rw [List.nodup_cons] at hl
    rw [upperPairs, List.mem_append, List.mem_map] at h
    rcases h with ⟨y, hy, rfl⟩ | h
    · intro h
      have h : x = y := h
      exact hl.1 (h ▸ hy)
    · exact ih hl.2 h

omit [FloatOps F] in
theorem mem_upperPairs_of {l : List Nat} {a c : Nat} (ha : a ∈ l) (hc : c ∈ l) (hne : a ≠ c) : (a, c) ∈ upperPairs l ∨ (c, a) ∈ upperPairs l := by
  induction l with
  | nil => simp at ha
  | cons x xs ih =>
    rw [List.mem_cons] at ha hc
    simp only [upperPairs, List.mem_append, List.mem_map, Prod.mk.injEq]
    rcases ha with rfl | ha
    · rcases hc with rfl | hc
      · exact absurd rfl hne
      · exact Or.inl (Or.inl ⟨c, hc, rfl, rfl⟩)
    · rcases hc with rfl | hc
      · exact Or.inr (Or.inl ⟨a, ha, rfl, rfl⟩)
      · rcases ih ha hc with h | h
        · exact Or.inl (Or.inr h)
        · exact Or.inr (Or.inr h)

theorem mem_clusterDists {dist : Nat → Nat → F} {b : Buf Int} {n c : Nat} {d : F} (h : d ∈ clusterDists dist b n c) :
    ∃ i j, i ≠ j ∧ i < n ∧ j < n ∧ b.get i = some (c : Int) ∧ b.get j = some (c : Int) ∧ d = dist i j := by
  unfold clusterDists at h
  obtain ⟨p, hp, rfl⟩ := List.mem_map.1 h
  have h1 := mem_upperPairs_mem hp
  rw [List.mem_reverse, List.mem_reverse, mem_members, mem_members] at h1
  exact ⟨p.1, p.2, mem_upperPairs_ne (List.nodup_reverse.2 nodup_members) hp, h1.1.1, h1.2.1, h1.1.2, h1.2.2, rfl⟩

theorem clusterDists_mem {dist : Nat → Nat → F} {b : Buf Int} {n c i j : Nat} (hs : ∀ p q, p < n → q < n → dist p q = dist q p) (hne : i ≠ j) (hi : i < n) (hj : j < n)
    (hbi : b.get i = some (c : Int)) (hbj : b.get j = some (c : Int)) : dist i j ∈ clusterDists dist b n c := by
  unfold clusterDists
  rw [List.mem_map]
  rcases mem_upperPairs_of (l := (members b n c).reverse) (List.mem_reverse.2 (mem_members.2 ⟨hi, hbi⟩)) (List.mem_reverse.2 (mem_members.2 ⟨hj, hbj⟩)) hne with h | h
  · exact ⟨_, h, rfl⟩
  · exact ⟨_, h, hs _ _ hj hi⟩

/-- The smallest and the largest distance after the second loop has seen the clusters below `i`. -/
structure ExtremesTo (dist : Nat → Nat → F) (b : Buf Int) (n i : Nat) (st : Stats F) : Prop where
  minNum : IsNum st.minDist
  maxNum : IsNum st.maxDist
  min_nonneg : FloatOps.le FloatOps.zero st.minDist = true
  alone : (∃ c, c < i ∧ (members b n c).length = 1) → st.minDist = FloatOps.zero
  min_le : ∀ c, c < i → ∀ d ∈ clusterDists dist b n c, FloatOps.le st.minDist d = true
  min_is : (∀ c, c < i → (members b n c).length ≠ 1) → (∃ c, c < i ∧ clusterDists dist b n c ≠ []) → ∃ c, c < i ∧ ∃ d ∈ clusterDists dist b n c, FloatOps.le d st.minDist = true
  min_top : (∀ c, c < i → (members b n c).length ≠ 1) → (∀ c, c < i → clusterDists dist b n c = []) → st.minDist = FloatOps.dblMax
  le_max : ∀ c, c < i → ∀ d ∈ clusterDists dist b n c, FloatOps.le d st.maxDist = true
  max_is : (∃ c, c < i ∧ clusterDists dist b n c ≠ []) → ∃ c, c < i ∧ ∃ d ∈ clusterDists dist b n c, FloatOps.le st.maxDist d = true
  max_zero : (∀ c, c < i → clusterDists dist b n c = []) → st.maxDist = FloatOps.zero

theorem FiniteDists.ofMem {n : Nat} {dist : Nat → Nat → F} (h : FiniteDists n dist) {b : Buf Int} {c : Nat} {d : F} (hd : d ∈ clusterDists dist b n c) :
    IsNum d ∧ FloatOps.le FloatOps.zero d = true ∧ FloatOps.le d FloatOps.dblMax = true := by
  obtain ⟨i, j, -, hi, hj, -, -, rfl⟩ := mem_clusterDists hd
  exact ⟨h.num i j hi hj, h.nonneg i j hi hj, h.finite i j hi hj⟩

theorem extremesTo_foldl {dist : Nat → Nat → F} {n : Nat} (hd : FiniteDists n dist) (hzm : FloatOps.le (FloatOps.zero : F) FloatOps.dblMax = true) (b : Buf Int) (k : Nat) {st0 : Stats F}
    (h0 : st0.minDist = FloatOps.dblMax ∧ st0.maxDist = FloatOps.zero) : ExtremesTo dist b n k ((List.range k).foldl (clusterInto dist b n) st0) := by
  have hF := hd.order
  induction k with
  | zero =>
    rw [List.range_zero, List.foldl_nil]
    refine ⟨?_, ?_, ?_, ?_, ?_, ?_, fun _ _ => h0.1, ?_, ?_, fun _ => h0.2⟩
    · rw [h0.1]; exact hd.maxNum
    · rw [h0.2]; exact hd.zeroNum
    · rw [h0.1]; exact hzm
    · rintro ⟨c, hc, -⟩; omega
    · intro c hc; omega
    · rintro - ⟨c, hc, -⟩; omega
    · intro c hc; omega
    · rintro ⟨c, hc, -⟩; omega
  | succ i ih =>
    rw [List.range_succ, List.foldl_append, List.foldl_cons, List.foldl_nil]
    revert ih
    generalize (List.range i).foldl (clusterInto dist b n) st0 = st
    intro ih
    have hlt : ∀ c, c < i + 1 → c < i ∨ c = i := fun c hc => by omega
    have hlen := length_clusterDists dist b n i
    unfold clusterInto
    by_cases h2 : (members b n i).length < 2
    · have hnil : clusterDists dist b n i = [] := by
        rw [← List.length_eq_zero_iff, hlen]
        have : (members b n i).length = 0 ∨ (members b n i).length = 1 := by omega
        rcases this with h | h <;> rw [h]
      have hnone : ∀ d, d ∉ clusterDists dist b n i := by rw [hnil]; simp
      have hempty : (∃ c, c < i + 1 ∧ clusterDists dist b n c ≠ []) → ∃ c, c < i ∧ clusterDists dist b n c ≠ [] := by
        rintro ⟨c, hc, hne⟩
        rcases hlt c hc with h | rfl
        · exact ⟨c, h, hne⟩
        · exact absurd hnil hne
      rw [if_pos h2]
      by_cases h1 : (members b n i).length = 1
      · rw [if_pos h1]
        refine ⟨hd.zeroNum, ih.maxNum, hd.zeroNum, fun _ => rfl, ?_, ?_, ?_, ?_, ?_, fun h => ih.max_zero fun c hc => h c (by omega)⟩
        · intro c hc d hdm
          exact (hd.ofMem hdm).2.1
        · intro hno
          exact absurd h1 (hno i (by omega))
        · intro hno
          exact absurd h1 (hno i (by omega))
        · intro c hc d hdm
          rcases hlt c hc with h | rfl
          · exact ih.le_max c h d hdm
          · exact absurd hdm (hnone d)
        · intro h
          obtain ⟨c, hc, d, h1, h2⟩ := ih.max_is (hempty h)
          exact ⟨c, by omega, d, h1, h2⟩
      · rw [if_neg h1]
        refine ⟨ih.minNum, ih.maxNum, ih.min_nonneg, ?_, ?_, ?_, ?_, ?_, ?_, fun h => ih.max_zero fun c hc => h c (by omega)⟩
        · rintro ⟨c, hc, hc1⟩
          rcases hlt c hc with h | rfl
          · exact ih.alone ⟨c, h, hc1⟩
          · exact absurd hc1 h1
        · intro c hc d hdm
          rcases hlt c hc with h | rfl
          · exact ih.min_le c h d hdm
          · exact absurd hdm (hnone d)
        · intro hno h
          obtain ⟨c, hc, d, h1, h2⟩ := ih.min_is (fun c hc => hno c (by omega)) (hempty h)
          exact ⟨c, by omega, d, h1, h2⟩
        · intro hno h
          exact ih.min_top (fun c hc => hno c (by omega)) (fun c hc => h c (by omega))
        · intro c hc d hdm
          rcases hlt c hc with h | rfl
          · exact ih.le_max c h d hdm
          · exact absurd hdm (hnone d)
        · intro h
          obtain ⟨c, hc, d, h1, h2⟩ := ih.max_is (hempty h)
          exact ⟨c, by omega, d, h1, h2⟩
    · rw [if_neg h2]
      have hne : clusterDists dist b n i ≠ [] := by
        rw [← List.length_pos_iff, hlen]
        have : 2 * 1 ≤ (members b n i).length * ((members b n i).length - 1) := Nat.mul_le_mul (by omega) (by omega)
        omega
      have hnum : ∀ d ∈ clusterDists dist b n i, IsNum d := fun d hdm => (hd.ofMem hdm).1
      obtain ⟨hl1, hl2⟩ := least_spec hF hnum hne
      obtain ⟨hg1, hg2⟩ := greatest_spec hF hnum hne
      have hloNum := hnum _ hl1
      have hhiNum := hnum _ hg1
      unfold addCluster
      revert hl1 hl2 hloNum
      generalize leastOf (clusterDists dist b n i) = lo
      intro hl1 hl2 hloNum
      revert hg1 hg2 hhiNum
      generalize greatestOf (clusterDists dist b n i) = hi
      intro hg1 hg2 hhiNum
      have hmin : ∃ m, m = (if FloatOps.lt lo st.minDist then lo else st.minDist) ∧ (m = lo ∧ FloatOps.le lo st.minDist = true ∧ FloatOps.le st.minDist lo = false ∨ m = st.minDist ∧ FloatOps.le st.minDist lo = true) := by
        refine ⟨_, rfl, ?_⟩
        by_cases h : FloatOps.lt lo st.minDist = true
        · rw [if_pos h]
          rw [hF.lt_iff _ _ hloNum ih.minNum] at h
          exact Or.inl ⟨rfl, (hF.total _ _ hloNum ih.minNum).resolve_right (by simp [h]), h⟩
        · rw [if_neg h]
          rw [hF.lt_iff _ _ hloNum ih.minNum] at h
          exact Or.inr ⟨rfl, by simpa using h⟩
      have hmax : ∃ m, m = (if FloatOps.lt st.maxDist hi then hi else st.maxDist) ∧ (m = hi ∧ FloatOps.le st.maxDist hi = true ∨ m = st.maxDist ∧ FloatOps.le hi st.maxDist = true) := by
        refine ⟨_, rfl, ?_⟩
        by_cases h : FloatOps.lt st.maxDist hi = true
        · rw [if_pos h]
          rw [hF.lt_iff _ _ ih.maxNum hhiNum] at h
          exact Or.inl ⟨rfl, (hF.total _ _ ih.maxNum hhiNum).resolve_right (by simp [h])⟩
        · rw [if_neg h]
          rw [hF.lt_iff _ _ ih.maxNum hhiNum] at h
          exact Or.inr ⟨rfl, by simpa using h⟩
      obtain ⟨m, hm, hmc⟩ := hmin
      obtain ⟨x, hx, hxc⟩ := hmax
      rw [← hm, ← hx]
      refine ⟨?_, ?_, ?_, ?_, ?_, ?_, ?_, ?_, ?_, ?_⟩
      · rcases hmc with ⟨h, -⟩ | ⟨h, -⟩ <;> rw [h]
        exacts [hloNum, ih.minNum]
      · rcases hxc with ⟨h, -⟩ | ⟨h, -⟩ <;> rw [h]
        exacts [hhiNum, ih.maxNum]
      · rcases hmc with ⟨h, -⟩ | ⟨h, -⟩ <;> rw [h]
        exacts [(hd.ofMem hl1).2.1, ih.min_nonneg]
      · rintro ⟨c, hc, hc1⟩
        have hz : st.minDist = FloatOps.zero := by
          rcases hlt c hc with h | rfl
          · exact ih.alone ⟨c, h, hc1⟩
          · omega
        rcases hmc with ⟨h, h3, h4⟩ | ⟨h, -⟩
        · rw [hz, (hd.ofMem hl1).2.1] at h4
          exact absurd h4 (by simp)
        · exact h.trans hz
      · intro c hc d hdm
        rcases hlt c hc with h | rfl
        · rcases hmc with ⟨rfl, h3, -⟩ | ⟨rfl, h3⟩
          · exact hF.trans _ _ _ h3 (ih.min_le c h d hdm)
          · exact ih.min_le c h d hdm
        · rcases hmc with ⟨rfl, h3, -⟩ | ⟨rfl, h3⟩
          · exact hl2 d hdm
          · exact hF.trans _ _ _ h3 (hl2 d hdm)
      · intro hno _
        rcases hmc with ⟨rfl, h3, -⟩ | ⟨rfl, h3⟩
        · exact ⟨i, by omega, _, hl1, hloNum⟩
        · by_cases hex : ∃ c, c < i ∧ clusterDists dist b n c ≠ []
          · obtain ⟨c, hc, d, h1, h2⟩ := ih.min_is (fun c hc => hno c (by omega)) hex
            exact ⟨c, by omega, d, h1, h2⟩
          · refine ⟨i, by omega, lo, hl1, ?_⟩
            dsimp only
            rw [ih.min_top (fun c hc => hno c (by omega)) (fun c hc => by by_contra hcon; exact hex ⟨c, hc, hcon⟩)]
            exact (hd.ofMem hl1).2.2
      · intro _ hall
        exact absurd (hall i (by omega)) hne
      · intro c hc d hdm
        rcases hlt c hc with h | rfl
        · rcases hxc with ⟨rfl, h3⟩ | ⟨rfl, h3⟩
          · exact hF.trans _ _ _ (ih.le_max c h d hdm) h3
          · exact ih.le_max c h d hdm
        · rcases hxc with ⟨rfl, h3⟩ | ⟨rfl, h3⟩
          · exact hg2 d hdm
          · exact hF.trans _ _ _ (hg2 d hdm) h3
      · intro _
        rcases hxc with ⟨rfl, h3⟩ | ⟨rfl, h3⟩
        · exact ⟨i, by omega, _, hg1, hhiNum⟩
        · by_cases hex : ∃ c, c < i ∧ clusterDists dist b n c ≠ []
          · obtain ⟨c, hc, d, h1, h2⟩ := ih.max_is hex
            exact ⟨c, by omega, d, h1, h2⟩
          · refine ⟨i, by omega, hi, hg1, ?_⟩
            dsimp only
            rw [ih.max_zero (fun c hc => by by_contra hcon; exact hex ⟨c, hc, hcon⟩)]
            exact (hd.ofMem hg1).2.1
      · intro hall
        exact absurd (hall i (by omega)) hne

theorem computed_extremes {dist : Nat → Nat → F} {n k : Nat} (hd : FiniteDists n dist) (hzm : FloatOps.le (FloatOps.zero : F) FloatOps.dblMax = true) {b : Buf Int} {s : Stats F} (h : Computed dist n k b s) :
    ExtremesAre dist n k b s := by
  obtain ⟨st, hst, rfl⟩ := h
  have hs0 : st.minDist = FloatOps.dblMax ∧ st.maxDist = FloatOps.zero := by rw [hst.rest]; exact ⟨rfl, rfl⟩
  by_cases h0 : st.populated = 0
  · rw [if_pos h0]
    have he : clustersFrom b n k 1 = [] := List.length_eq_zero_iff.1 (hst.populated ▸ h0)
    have hm : ∀ c, c < k → members b n c = [] := by
      intro c hc
      by_contra hcon
      rw [List.eq_nil_iff_forall_not_mem] at he
      exact he c (mem_clustersFrom.2 ⟨hc, List.length_pos_iff.2 hcon⟩)
    have hno : ∀ i j, ¬ SameCluster b n k i j := by
      rintro i j ⟨hi, -, c, hc, hb, -⟩
      have := mem_members.2 ⟨hi, hb⟩
      rw [hm c hc] at this
      simp at this
    refine ⟨?_, fun i j _ h => absurd h (hno i j), ?_, fun i j _ h => absurd h (hno i j), ?_, fun _ => hs0.2⟩
    · rintro ⟨c, hc, h1⟩
      rw [hm c hc] at h1
      simp at h1
    · rintro ⟨i, j, -, h⟩; exact absurd h (hno i j)
    · rintro ⟨i, j, -, h⟩; exact absurd h (hno i j)
  · rw [if_neg h0]
    have h := extremesTo_foldl hd hzm b k hs0
    revert h
    generalize (List.range k).foldl (clusterInto dist b n) st = t
    intro h
    have hpair : (∃ i j, i ≠ j ∧ SameCluster b n k i j) → ∃ c, c < k ∧ clusterDists dist b n c ≠ [] := by
      rintro ⟨i, j, hne, hi, hj, c, hc, h1, h2⟩
      exact ⟨c, hc, List.ne_nil_of_mem (clusterDists_mem hd.symm hne hi hj h1 h2)⟩
    refine ⟨h.alone, ?_, ?_, ?_, ?_, ?_⟩
    · rintro i j hne ⟨hi, hj, c, hc, h1, h2⟩
      exact h.min_le c hc _ (clusterDists_mem hd.symm hne hi hj h1 h2)
    · intro hex hno
      obtain ⟨c, hc, d, h1, h2⟩ := h.min_is hno (hpair hex)
      obtain ⟨i, j, hne, hi, hj, hb1, hb2, rfl⟩ := mem_clusterDists h1
      exact ⟨i, j, hne, ⟨hi, hj, c, hc, hb1, hb2⟩, h2⟩
    · rintro i j hne ⟨hi, hj, c, hc, h1, h2⟩
      exact h.le_max c hc _ (clusterDists_mem hd.symm hne hi hj h1 h2)
    · intro hex
      obtain ⟨c, hc, d, h1, h2⟩ := h.max_is (hpair hex)
      obtain ⟨i, j, hne, hi, hj, hb1, hb2, rfl⟩ := mem_clusterDists h1
      exact ⟨i, j, hne, ⟨hi, hj, c, hc, hb1, hb2⟩, h2⟩
    · intro hno
      refine h.max_zero fun c hc => ?_
      by_contra hcon
      obtain ⟨d, hdm⟩ := List.exists_mem_of_ne_nil _ hcon
      obtain ⟨i, j, hne, hi, hj, hb1, hb2, -⟩ := mem_clusterDists hdm
      exact hno ⟨i, j, hne, hi, hj, c, hc, hb1, hb2⟩

/-! ### The sum in exact arithmetic -/

omit [FloatOps F] in
theorem upperPairs_filter (p : Nat → Bool) (l : List Nat) : upperPairs (l.filter p) = (upperPairs l).filter fun q => p q.1 && p q.2 := by
  induction l with
  | nil => rfl
  | cons x xs ih =>
    rw [upperPairs, List.filter_append, ← ih, List.filter_cons]
    by_cases hp : p x = true
    · rw [if_pos hp, upperPairs, List.filter_map]
      congr 2
      apply List.filter_congr
      intro y _
      simp [hp]
    · rw [if_neg hp]
      have : (xs.map fun y => (x, y)).filter (fun q => p q.1 && p q.2) = [] := by
        rw [List.filter_eq_nil_iff]
        intro q hq
        obtain ⟨y, -, rfl⟩ := List.mem_map.1 hq
        simp [hp]
      rw [this, List.nil_append]

omit [FloatOps F] in
theorem upperPairs_map_perm {l l' : List Nat} (h : l.Perm l') (f : Nat → Nat → F) (hs : ∀ a ∈ l, ∀ c ∈ l, f a c = f c a) :
    ((upperPairs l).map fun p => f p.1 p.2).Perm ((upperPairs l').map fun p => f p.1 p.2) := by
  induction h with
  | nil => exact List.Perm.refl _
  | cons x h ih =>
    simp only [upperPairs, List.map_append, List.map_map]
    exact ((h.map _)).append (ih fun a ha c hc => hs a (List.mem_cons_of_mem _ ha) c (List.mem_cons_of_mem _ hc))
  | swap x y l =>
    simp only [upperPairs, List.map_append, List.map_map, List.map_cons, List.cons_append]
    have hxy := hs x (by simp) y (by simp)
    simp only [Function.comp_def]
    rw [hxy]
    refine List.Perm.cons _ ?_
    rw [← List.append_assoc, ← List.append_assoc]
    exact (List.perm_append_comm).append_right _
  | trans h1 h2 ih1 ih2 =>
    exact (ih1 hs).trans (ih2 fun a ha c hc => hs a (h1.mem_iff.2 ha) c (h1.mem_iff.2 hc))

omit [FloatOps F] in
theorem nodup_upperPairs {l : List Nat} (h : l.Nodup) : (upperPairs l).Nodup := by
  induction l with
  | nil => exact List.nodup_nil
  | cons x xs ih =>
    rw [List.nodup_cons] at h
    rw [upperPairs, List.nodup_append']
    refine ⟨h.2.map fun a c hac => (Prod.mk.inj hac).2, ih h.2, ?_⟩
    intro p hp hq
    obtain ⟨y, -, rfl⟩ := List.mem_map.1 hp
    exact h.1 (mem_upperPairs_mem hq).1

theorem ExactAdd.foldl_eq (h : ExactAdd F) (l : List F) (a : F) : l.foldl FloatOps.add a = FloatOps.add a (l.foldl FloatOps.add FloatOps.zero) := by
  induction l generalizing a with
  | nil => rw [List.foldl_nil, List.foldl_nil, h.comm, h.zero_add]
  | cons x xs ih => rw [List.foldl_cons, List.foldl_cons, ih, ih (FloatOps.add FloatOps.zero x), h.zero_add, h.assoc]

theorem ExactAdd.sumOf_eq (h : ExactAdd F) (l : List F) : sumOf l = l.foldl FloatOps.add FloatOps.zero := by
  cases l with
  | nil => rfl
  | cons x xs => rw [sumOf, List.foldl_cons, h.zero_add]

theorem ExactAdd.sumOf_perm (h : ExactAdd F) {l l' : List F} (hp : l.Perm l') : sumOf l = sumOf l' := by
  rw [h.sumOf_eq, h.sumOf_eq]
  haveI : RightCommutative (FloatOps.add : F → F → F) := ⟨fun a c d => by rw [h.assoc, h.comm c, ← h.assoc]⟩
  exact hp.foldl_eq _

theorem ExactAdd.sumOf_append (h : ExactAdd F) (l l' : List F) : sumOf (l ++ l') = FloatOps.add (sumOf l) (sumOf l') := by
  rw [h.sumOf_eq, h.sumOf_eq, h.sumOf_eq, List.foldl_append, h.foldl_eq]

theorem ExactAdd.clusterSum_eq (h : ExactAdd F) (dist : Nat → Nat → F) (b : Buf Int) (n k : Nat) :
    clusterSum (clustersFrom b n k 2) (fun c => sumOf (clusterDists dist b n c)) = sumOf ((List.range k).flatMap (clusterDists dist b n)) := by
  induction k with
  | zero => rfl
  | succ k ih =>
    rw [List.range_succ, List.flatMap_append, h.sumOf_append, ← ih, clustersFrom_succ]
    simp only [List.flatMap_cons, List.flatMap_nil, List.append_nil]
    by_cases h2 : 2 ≤ (members b n k).length
    · rw [if_pos h2, clusterSum_snoc]
    · rw [if_neg h2, List.append_nil]
      have : clusterDists dist b n k = [] := by
        rw [← List.length_eq_zero_iff, length_clusterDists]
        have : (members b n k).length = 0 ∨ (members b n k).length = 1 := by omega
        rcases this with h | h <;> rw [h]
      rw [this]
      show _ = FloatOps.add _ FloatOps.zero
      rw [h.comm, h.zero_add]

theorem sum_pairsWithin (hadd : ExactAdd F) {cfg : Cfg} (hcfg : cfg.Valid) {dist : Nat → Nat → F} {n k : Nat} (hs : ∀ p q, p < n → q < n → dist p q = dist q p) {b : Buf Int} (hk : k ≤ cfg.clabelMax)
    (hv : ValidLabels cfg b n k) :
    clusterSum (clustersFrom b n k 2) (fun c => sumOf (clusterDists dist b n c)) = sumOf ((pairsWithin cfg b n).map fun p => dist p.1 p.2) := by
  rw [hadd.clusterSum_eq]
  apply hadd.sumOf_perm
  have h1 : ((List.range k).flatMap (clusterDists dist b n)).Perm ((List.range k).flatMap fun c => (upperPairs (members b n c)).map fun p => dist p.1 p.2) := by
    refine List.Perm.flatMap_left _ fun c _ => ?_
    unfold clusterDists
    refine upperPairs_map_perm (List.reverse_perm _) _ fun a ha c hc => ?_
    rw [List.mem_reverse, mem_members] at ha hc
    exact hs a c ha.1 hc.1
  refine h1.trans ?_
  rw [← List.map_flatMap]
  refine List.Perm.map _ ?_
  unfold pairsWithin
  refine (List.perm_ext_iff_of_nodup ?_ ((nodup_upperPairs List.nodup_range).filter _)).2 fun p => ?_
  · rw [List.nodup_flatMap]
    refine ⟨fun c _ => nodup_upperPairs nodup_members, List.nodup_range.imp fun {a c} hac => ?_⟩
    intro v h1 h2
    have h1 := (mem_upperPairs_mem h1).1
    have h2 := (mem_upperPairs_mem h2).1
    rw [mem_members] at h1 h2
    have := h1.2.symm.trans h2.2
    simp only [Option.some.injEq, Int.ofNat_inj] at this
    exact hac (by omega)
  · simp only [List.mem_flatMap, List.mem_range, List.mem_filter, decide_eq_true_eq]
    constructor
    · rintro ⟨c, hc, hp⟩
      have hm := mem_upperPairs_mem hp
      rw [mem_members, mem_members] at hm
      rw [members, upperPairs_filter, List.mem_filter] at hp
      refine ⟨hp.1, fun h => ?_, by rw [hm.1.2, hm.2.2]⟩
      rw [hm.1.2] at h
      exact na_ne hcfg hk hc (Option.some.inj h)
    · rintro ⟨hp, hna, heq⟩
      have hm := mem_upperPairs_mem hp
      rw [List.mem_range, List.mem_range] at hm
      rcases hv p.1 hm.1 with h | ⟨c, hc, h⟩
      · exact absurd h hna
      · refine ⟨c, hc, ?_⟩
        rw [members, upperPairs_filter, List.mem_filter]
        refine ⟨hp, ?_⟩
        rw [heq] at h
        simp [h, heq]

/-! ### The call -/

theorem getStats_spec {cfg : Cfg} {spi : Spi F} {dist : Nat → Nat → F} {mayRefuse : Prop} {ob : ClObj} (hm : MatrixOk spi ob.cl.n dist mayRefuse) {w : World} (h : StatsOk cfg ob w) :
    WpM (getStats cfg spi (some ob) true) w fun r w' => w'.live = w.live ∧
      (ob.cl.isInitialized cfg = true ∧ 0 < ob.cl.numClusters ∧ spi.valid = true ∧ spi.numPoints = ob.cl.n ∧ (∃ lb, ob.cl.label = some lb ∧
          (r.1 = .ok ∧ w'.err = w.err ∧ (∃ s, r.2 = some s ∧ Computed dist ob.cl.n ob.cl.numClusters lb.buf s) ∨
           r.2 = some nullStats ∧ w'.err.code = r.1 ∧ (r.1 = .noMemory ∧ ¬ w.NoFail ∨ r.1 = .distSearch ∧ (¬ w.NoFail ∨ mayRefuse)))) ∨
        ¬ (ob.cl.isInitialized cfg = true ∧ 0 < ob.cl.numClusters ∧ spi.valid = true ∧ spi.numPoints = ob.cl.n) ∧ r = (.invalidInput, some nullStats) ∧ w'.err.code = .invalidInput) := by
  unfold getStats
  rw [if_neg (by simp), wpM_bind]
  refine isInitialized_wp (Multiset.mem_of_le h.live (by simp)) ?_
  by_cases hi : ob.cl.isInitialized cfg = true
  · rw [hi]
    dsimp only
    unfold statsError
    have hiff := isInitialized_iff.1 hi
    by_cases h1 : ob.cl.numClusters = 0
    · rw [if_pos h1]
      dsimp only
      rw [wpM_bind]
      refine wpM_mkErr fun w1 f1 l1 e1 => ?_
      rw [wpM_pure]
      exact ⟨l1, Or.inr ⟨by omega, rfl, by rw [e1]⟩⟩
    rw [if_neg h1]
    by_cases h2 : spi.valid = true
    · rw [if_neg (by simp [h2])]
      by_cases h3 : spi.numPoints = ob.cl.n
      · rw [if_neg (by simp [h3])]
        dsimp only
        rw [wpM_bind]
        cases hlb : ob.cl.label with
        | none => exact absurd hlb (hiff.2.2.2.2 (by omega))
        | some lb =>
          have hmem : lb.id ∈ w.live := by
            have := h.live
            rw [hlb] at this
            exact Multiset.mem_of_le this (by simp [ptrOwn])
          refine (statsMain_spec h.config hm hlb (by omega) hiff.2.2.2.1 (h.labels (by omega) lb hlb) h.room.1 h.room.2 hmem).mono ?_
          rintro ⟨e, o⟩ w1 ⟨l1, hr⟩
          dsimp only
          rw [wpM_pure]
          refine ⟨l1, Or.inl ⟨rfl, by omega, h2, h3, lb, rfl, ?_⟩⟩
          rcases hr with ⟨k1, k2, s, k3, k4⟩ | ⟨k1, k2, k3⟩
          · dsimp only at k1 k3
            subst k1 k3
            exact Or.inl ⟨rfl, k2, s, rfl, k4⟩
          · dsimp only at k1
            subst k1
            exact Or.inr ⟨rfl, k2, k3⟩
      · rw [if_pos h3]
        dsimp only
        rw [wpM_bind]
        refine wpM_mkErr fun w1 f1 l1 e1 => ?_
        rw [wpM_pure]
        exact ⟨l1, Or.inr ⟨fun hh => h3 hh.2.2.2, rfl, by rw [e1]⟩⟩
    · rw [if_pos (by simp [h2])]
      dsimp only
      rw [wpM_bind]
      refine wpM_mkErr fun w1 f1 l1 e1 => ?_
      rw [wpM_pure]
      exact ⟨l1, Or.inr ⟨fun hh => h2 hh.2.2.1, rfl, by rw [e1]⟩⟩
  · rw [Bool.not_eq_true] at hi
    rw [hi]
    dsimp only
    rw [wpM_bind]
    refine wpM_mkErr fun w1 f1 l1 e1 => ?_
    rw [wpM_pure]
    exact ⟨l1, Or.inr ⟨fun hh => by simp at hh, rfl, by rw [e1]⟩⟩

end Scc
