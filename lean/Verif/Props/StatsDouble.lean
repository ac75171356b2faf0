/-
C78: the statistics, computed in `double`.
-/
import Verif.Proofs.StatsDouble
import Verif.Props.Stats
import Verif.Props.Double

set_option linter.unusedSimpArgs false
set_option linter.unusedVariables false

namespace Scc

theorem Rounded.relErr {K L : Nat} {x : ℝ} {d : Dbl} (h : Rounded K x d) (hKL : K ≤ L) (hL : L ≤ 2 ^ 52) : RelErr ((L : ℝ) * 2 ^ (-52 : ℤ)) x d := (h.weaken hKL).error hL

theorem relErr_zero {ε : ℝ} : RelErr ε 0 (FloatOps.zero : Dbl) := ⟨0, rfl, by simp⟩

/-- C78. The statistics that the library reports for points with coordinates of type `double` are those of exact arithmetic, with relative errors of at most (dimensions + pairs + 16) 2^-52, where `pairs` is the number of pairs of
points with the same cluster, which must not exceed 2^51. The sum of distances in exact arithmetic is that over these pairs. -/
theorem C78_stats {cfg : Cfg} {ds : DataSet Dbl} (hm : ds.Moderate) {ob : ClObj} {w w' : World} (h : StatsOk cfg ob w) (hn : ob.cl.n = ds.n) {s : Stats Dbl} {lb : Blk Int}
    (hrun : getStats cfg (builtinSpi (some ds)) (some ob) true w = some ((.ok, some s), w')) (hlb : ob.cl.label = some lb) (hN : (pairsWithin cfg lb.buf ds.n).length ≤ 2 ^ 51) :
    ∃ t : Stats ℝ, StatsAre cfg ds.eudist ds.n ob.cl.numClusters lb.buf t ∧ ExtremesAre ds.eudist ds.n ob.cl.numClusters lb.buf t ∧
      t.sumDists = ((pairsWithin cfg lb.buf ds.n).map fun p => ds.eudist p.1 p.2).sum ∧ StatsNear ((ds.dims + (pairsWithin cfg lb.buf ds.n).length + 16 : Nat) * 2 ^ (-52 : ℤ)) t s := by
  have hmat : MatrixOk (builtinSpi (some ds)) ob.cl.n ds.dist False := by rw [hn]; exact builtinMatrix hm.finite.complete
  have hE : ExtremesAre ds.dist ds.n ob.cl.numClusters lb.buf s := by
    rw [← hn]
    refine C20_extremes hmat h ?_ hrun hlb
    rw [hn]
    refine hm.finite.finiteDists fun p q hp hq => ?_
    obtain ⟨x, h1, -, h2, -⟩ := dist_error hm hp hq
    rw [h1]
    exact Dbl.le_fin.2 h2
  have hok : ob.cl.isInitialized cfg = true ∧ 0 < ob.cl.numClusters ∧ (builtinSpi (some ds)).valid = true ∧ (builtinSpi (some ds)).numPoints = ob.cl.n := by
    by_contra hbad
    obtain ⟨w1, h1, -⟩ := C20_rejects hmat h hbad
    rw [hrun] at h1
    cases h1
  obtain ⟨hi, hk, hval, hnum⟩ := hok
  obtain ⟨e, s1, w1, lb1, h1, h2, -, h3⟩ := C20_stats hmat h hi hk hval hnum
  rw [hrun] at h1
  cases h1
  rw [hlb] at h2
  cases h2
  obtain ⟨hS, hU⟩ : StatsAre cfg ds.dist ob.cl.n ob.cl.numClusters lb.buf s ∧ (clustersFrom lb.buf ob.cl.n ob.cl.numClusters 1 = [] → s = UnpopulatedStats ob.cl.n ob.cl.numClusters) := by
    rcases h3 with ⟨-, -, h3, h4⟩ | ⟨-, -, ⟨h3, -⟩ | ⟨h3, -⟩⟩
    · exact ⟨h3, h4⟩
    · cases h3
    · cases h3
  have hcfg := h.config
  have hkm := (isInitialized_iff.1 hi).2.2.2.1
  have hv := h.labels hk lb hlb
  have hroom := h.room.2
  rw [hn] at hS hU hv hroom
  have hd := hm.dims
  have hn64 : ds.n ≤ 2 ^ 64 := by
    rcases Nat.lt_or_ge ds.n 2 with h0 | h0
    · exact (show ds.n ≤ 1 by omega).trans (by norm_num)
    · have : ds.n * 1 ≤ ds.n * (ds.n - 1) := Nat.mul_le_mul_left _ (by omega)
      omega
  set b := lb.buf with hb
  set k := ob.cl.numClusters with hkk
  set N := (pairsWithin cfg b ds.n).length with hNdef
  have hsum := total_sum hcfg hm hkm hv hN
  have hleast := total_least hcfg hm hkm hv hN
  have hgreat := total_greatest hcfg hm hkm hv hN
  have hmean := total_mean hcfg hm hkm hv hN
  have hweight := total_weighted hcfg hm hkm hv hN hn64
  obtain ⟨M, hM1, hM2, hM3, hM4⟩ := maxDist_near hm hE
  have hpop : (clustersFrom b ds.n k 1 = [] ∧ clustersFrom b ds.n k 2 = []) ∨ clustersFrom b ds.n k 1 ≠ [] := by
    by_cases h0 : clustersFrom b ds.n k 1 = []
    · left
      refine ⟨h0, List.eq_nil_iff_forall_not_mem.2 fun c hc => ?_⟩
      have h1 := List.mem_filter.1 hc
      have h2 : c ∈ clustersFrom b ds.n k 1 := List.mem_filter.2 ⟨h1.1, decide_eq_true (by have := of_decide_eq_true h1.2; omega)⟩
      rw [h0] at h2; cases h2
    · exact Or.inr h0
  -- the smallest distance
  obtain ⟨m, hm1, hm2, hm3, hm4⟩ : ∃ m, ((∃ c, c < k ∧ (members b ds.n c).length = 1) → m = 0) ∧ (∀ i j, i ≠ j → SameCluster b ds.n k i j → m ≤ ds.eudist i j) ∧
      ((∃ i j, i ≠ j ∧ SameCluster b ds.n k i j) → (∀ c, c < k → (members b ds.n c).length ≠ 1) → ∃ i j, i ≠ j ∧ SameCluster b ds.n k i j ∧ ds.eudist i j ≤ m) ∧
      RelErr ((ds.dims + N + 16 : Nat) * 2 ^ (-52 : ℤ)) m s.minDist := by
    rcases hpop with ⟨h0, -⟩ | h0
    · have hempty : ∀ c, c < k → members b ds.n c = [] := by
        intro c hc
        by_contra hne
        have : c ∈ clustersFrom b ds.n k 1 := List.mem_filter.2 ⟨List.mem_range.2 hc, decide_eq_true (List.length_pos_of_ne_nil hne)⟩
        rw [h0] at this; cases this
      have hno : ∀ i j, ¬ SameCluster b ds.n k i j := by
        rintro i j ⟨hi, -, c, hc, hci, -⟩
        have : i ∈ members b ds.n c := mem_members.2 ⟨hi, hci⟩
        rw [hempty c hc] at this; cases this
      refine ⟨maxDouble, ?_, fun i j _ hs => absurd hs (hno i j), fun ⟨i, j, _, hs⟩ => absurd hs (hno i j), ?_⟩
      · rintro ⟨c, hc, h1⟩
        rw [hempty c hc] at h1; cases h1
      · rw [hU h0]
        refine ⟨maxDouble, rfl, ?_⟩
        rw [sub_self, abs_zero]
        exact mul_nonneg (mul_nonneg (Nat.cast_nonneg _) (zpow2_pos _).le) Dbl.maxDouble_pos.le
    · obtain ⟨c, hc⟩ := List.exists_mem_of_ne_nil _ h0
      have hc1 := List.mem_range.1 (List.mem_filter.1 hc).1
      have hc2 : 1 ≤ (members b ds.n c).length := of_decide_eq_true (List.mem_filter.1 hc).2
      obtain ⟨m, g1, g2, g3, g4⟩ := minDist_near hm hE (by
        by_cases h1 : (members b ds.n c).length = 1
        · exact Or.inl ⟨c, hc1, h1⟩
        · right
          have h0' : 0 < (members b ds.n c).length := by omega
          have h1' : 1 < (members b ds.n c).length := by omega
          have ha := mem_members.1 (List.getElem_mem h0')
          have hb := mem_members.1 (List.getElem_mem h1')
          refine ⟨_, _, fun heq => ?_, ha.1, hb.1, c, hc1, ha.2, hb.2⟩
          have := (nodup_members (b := b) (n := ds.n) (i := c)).getElem_inj_iff.1 heq
          omega)
      exact ⟨m, g1, g2, g3, g4.relErr (by omega) (by omega)⟩
  have hass : s.numAssigned ≤ ds.n := by
    rw [hS.assigned]
    exact (List.length_filter_le _ _).trans (by rw [List.length_range])
  have hpl : s.populated ≤ ds.n := by rw [hS.populated]; exact populated_le
  have hpos : clustersFrom b ds.n k 1 ≠ [] → 0 < s.populated ∧ 0 < s.numAssigned := by
    intro h0
    refine ⟨by rw [hS.populated]; exact List.length_pos_of_ne_nil h0, ?_⟩
    obtain ⟨c, hc⟩ := List.exists_mem_of_ne_nil _ h0
    have hc1 := List.mem_range.1 (List.mem_filter.1 hc).1
    have hc2 : 1 ≤ (members b ds.n c).length := of_decide_eq_true (List.mem_filter.1 hc).2
    obtain ⟨v, hv'⟩ := List.exists_mem_of_length_pos (show 0 < (members b ds.n c).length by omega)
    rw [hS.assigned]
    refine List.length_pos_of_mem (a := v) (List.mem_filter.2 ⟨List.mem_range.2 (mem_members.1 hv').1, decide_eq_true fun hna => ?_⟩)
    rw [(mem_members.1 hv').2] at hna
    exact na_ne hcfg hkm hc1 (Option.some.inj hna)
  refine ⟨{ numPoints := s.numPoints, numAssigned := s.numAssigned, numClusters := s.numClusters, populated := s.populated, minSize := s.minSize, maxSize := s.maxSize
            avgSize := FloatOps.div (FloatOps.ofNat s.numAssigned) (FloatOps.ofNat s.populated)
            sumDists := clusterSum (clustersFrom b ds.n k 2) fun c => sumOf (clusterDists ds.eudist b ds.n c)
            minDist := m
            maxDist := M
            avgMin := FloatOps.div (clusterSum (clustersFrom b ds.n k 2) fun c => leastOf (clusterDists ds.eudist b ds.n c)) (FloatOps.ofNat s.populated)
            avgMax := FloatOps.div (clusterSum (clustersFrom b ds.n k 2) fun c => greatestOf (clusterDists ds.eudist b ds.n c)) (FloatOps.ofNat s.populated)
            avgWeighted := FloatOps.div (clusterSum (clustersFrom b ds.n k 2) fun c =>
              FloatOps.div (FloatOps.mul (FloatOps.ofNat (members b ds.n c).length) (sumOf (clusterDists ds.eudist b ds.n c))) (FloatOps.ofNat (clusterDists ds.eudist b ds.n c).length)) (FloatOps.ofNat s.numAssigned)
            avgUnweighted := FloatOps.div (clusterSum (clustersFrom b ds.n k 2) fun c =>
              FloatOps.div (sumOf (clusterDists ds.eudist b ds.n c)) (FloatOps.ofNat (clusterDists ds.eudist b ds.n c).length)) (FloatOps.ofNat s.populated) }, ?_, ?_, ?_, ?_⟩
  · exact ⟨hS.points, hS.clusters, hS.assigned, hS.populated, hS.minSize, hS.maxSize, fun _ => rfl, rfl, fun _ => rfl, fun _ => rfl, fun _ => rfl, fun _ => rfl⟩
  · exact ⟨hm1, fun i j hij hs => decide_eq_true (hm2 i j hij hs), fun h1 h2 => let ⟨i, j, h3, h4, h5⟩ := hm3 h1 h2; ⟨i, j, h3, h4, decide_eq_true h5⟩,
      fun i j hij hs => decide_eq_true (hM1 i j hij hs), fun h1 => let ⟨i, j, h3, h4, h5⟩ := hM2 h1; ⟨i, j, h3, h4, decide_eq_true h5⟩, hM3⟩
  · dsimp only
    rw [sum_pairsWithin realExact hcfg (fun p q _ _ => (eudist_metric ds).symm p q) hkm hv, real_sumOf]
  · have hsmall : ds.dims + N + 16 ≤ 2 ^ 52 := by omega
    refine ⟨rfl, rfl, rfl, rfl, rfl, rfl, ?_, ?_, hm4, hM4.relErr (by omega) hsmall, ?_, ?_, ?_, ?_⟩
    · rcases hpop with ⟨h0, -⟩ | h0
      · rw [hU h0]
        show RelErr _ (((0 : Nat) : ℝ) / ((0 : Nat) : ℝ)) _
        rw [Nat.cast_zero, zero_div]
        exact relErr_zero
      · rw [hS.avgSize h0]
        refine Rounded.relErr (K := 1 + 2 * 1 + 1) ?_ (by omega) hsmall
        refine (rounded_ofNat (hass.trans hn64)).div (by norm_num) (rounded_ofNat (hpl.trans hn64)) (by exact_mod_cast (hpos h0).1) ?_
        exact ((mid_natCast (l := 64) (hass.trans hn64)).div (mid_natCast (l := 64) (hpl.trans hn64))).mono (by norm_num)
    · rw [hS.sumDists]
      exact hsum.relErr (by omega) hsmall
    · rcases hpop with ⟨h0, h00⟩ | h0
      · rw [hU h0, h00]
        show RelErr _ ((0 : ℝ) / _) _
        rw [zero_div]; exact relErr_zero
      · rw [hS.avgMin h0]
        exact (average_rounded hcfg hm hkm hv hN hn64 (e := 0) (by norm_num) hleast.1 hleast.2 (hpos h0).1 hpl).relErr le_rfl hsmall
    · rcases hpop with ⟨h0, h00⟩ | h0
      · rw [hU h0, h00]
        show RelErr _ ((0 : ℝ) / _) _
        rw [zero_div]; exact relErr_zero
      · rw [hS.avgMax h0]
        exact (average_rounded hcfg hm hkm hv hN hn64 (e := 0) (by norm_num) hgreat.1 hgreat.2 (hpos h0).1 hpl).relErr le_rfl hsmall
    · rcases hpop with ⟨h0, h00⟩ | h0
      · rw [hU h0, h00]
        show RelErr _ ((0 : ℝ) / _) _
        rw [zero_div]; exact relErr_zero
      · rw [hS.avgWeighted h0]
        exact (average_rounded hcfg hm hkm hv hN hn64 (e := 5) (by norm_num) hweight.1 hweight.2 (hpos h0).2 hass).relErr le_rfl hsmall
    · rcases hpop with ⟨h0, h00⟩ | h0
      · rw [hU h0, h00]
        show RelErr _ ((0 : ℝ) / _) _
        rw [zero_div]; exact relErr_zero
      · rw [hS.avgUnweighted h0]
        exact (average_rounded hcfg hm hkm hv hN hn64 (e := 3) (by norm_num) hmean.1 hmean.2 (hpos h0).1 hpl).relErr le_rfl hsmall

/-! ### Example -/

/-- For the six points on a line and the clusters {0, 2, 3}, {4} and {1, 5}, with no failing allocation, the call succeeds and the sum of distances that it reports is 33 up to 21 units of 33 * 2^-52. -/
example : ∃ s w', getStats sampleCfg (builtinSpi (some lineDbl)) (some (hiObj 6 4 (some ⟨6, statLabels⟩))) true (sampleWorld [5, 6]) = some ((.ok, some s), w') ∧
    s.populated = 3 ∧ RelErr (21 * 2 ^ (-52 : ℤ)) 33 s.sumDists := by
  have hok : StatsOk sampleCfg (hiObj 6 4 (some ⟨6, statLabels⟩)) (sampleWorld [5, 6]) := statsOk_sample (by decide +kernel)
  obtain ⟨e, s, w', lb, h1, h2, -, h3⟩ := C20_stats (builtinMatrix lineDbl_finite.complete) hok (by decide +kernel) (by decide) rfl rfl
  have hnf : (sampleWorld [5, 6]).NoFail := fun _ _ => rfl
  rcases h3 with ⟨rfl, -⟩ | ⟨-, -, ⟨-, h3⟩ | ⟨-, h3 | h3⟩⟩
  · cases h2
    have hp : pairsWithin sampleCfg statLabels 6 = [(0, 2), (0, 3), (1, 5), (2, 3)] := by decide +kernel
    obtain ⟨t, t1, -, t3, t4⟩ := C78_stats lineDbl_moderate hok rfl h1 rfl (by rw [show lineDbl.n = 6 from rfl, hp]; norm_num)
    refine ⟨s, w', h1, ?_, ?_⟩
    · rw [t4.populated, t1.populated]
      show (clustersFrom statLabels 6 4 1).length = 3
      decide +kernel
    · have h5 := t4.sumDists
      rw [t3, show lineDbl.n = 6 from rfl, hp] at h5
      have h6 : ([(0, 2), (0, 3), (1, 5), (2, 3)].map fun p : Nat × Nat => lineDbl.eudist p.1 p.2).sum = 33 := by
        simp only [List.map, List.sum_cons, List.sum_nil]
        rw [lineDbl_eudist (by decide) (by decide), lineDbl_eudist (by decide) (by decide), lineDbl_eudist (by decide) (by decide), lineDbl_eudist (by decide) (by decide)]
        norm_num [lineAt]
      rw [h6] at h5
      exact_mod_cast h5
  · exact absurd hnf h3
  · exact absurd hnf h3
  · exact h3.elim

end Scc
