/-
Property C84: the statistics that `scc_get_clustering_stats` reports fit together. The specification is in Spec/Consistent.lean.
-/
import Verif.Proofs.Consistent
import Verif.Props.StatsDouble
import Verif.Props.Compare

namespace Scc

/-- A call that succeeds reports the statistics of the clustering. -/
theorem stats_of_ok {F : Type} [FloatOps F] {cfg : Cfg} {spi : Spi F} {dist : Nat → Nat → F} {mayRefuse : Prop} {ob : ClObj} {w w' : World} (hm : MatrixOk spi ob.cl.n dist mayRefuse) (h : StatsOk cfg ob w)
    {s : Stats F} (hrun : getStats cfg spi (some ob) true w = some ((.ok, some s), w')) : ∃ lb, ob.cl.label = some lb ∧ ob.cl.numClusters ≤ cfg.clabelMax ∧
      ValidLabels cfg lb.buf ob.cl.n ob.cl.numClusters ∧ StatsAre cfg dist ob.cl.n ob.cl.numClusters lb.buf s ∧ (0 < s.numAssigned → clustersFrom lb.buf ob.cl.n ob.cl.numClusters 1 ≠ []) := by
  have hok : ob.cl.isInitialized cfg = true ∧ 0 < ob.cl.numClusters ∧ spi.valid = true ∧ spi.numPoints = ob.cl.n := by
    by_contra hbad
    obtain ⟨w1, h1, -⟩ := C20_rejects hm h hbad
    rw [hrun] at h1
    cases h1
  obtain ⟨hi, hk, hval, hnum⟩ := hok
  obtain ⟨e, s1, w1, lb, h1, h2, -, h3⟩ := C20_stats hm h hi hk hval hnum
  rw [hrun] at h1
  cases h1
  rcases h3 with ⟨-, -, h3, h4⟩ | ⟨-, -, ⟨h3, -⟩ | ⟨h3, -⟩⟩
  · refine ⟨lb, h2, (isInitialized_iff.1 hi).2.2.2.1, h.labels hk lb h2, h3, fun ha he => ?_⟩
    rw [h4 he] at ha
    exact absurd ha (lt_irrefl 0)
  · cases h3
  · cases h3

/-- C84. In exact arithmetic, with any back end, the statistics of a clustering with assigned points fit together: averages are between the smallest and the largest value, and the average of the smallest
distances of clusters is at most the average distance, which is at most the average of the largest distances. -/
theorem C84_exact {cfg : Cfg} {spi : Spi ℝ} {dist : Nat → Nat → ℝ} {mayRefuse : Prop} {ob : ClObj} {w w' : World} (hm : MatrixOk spi ob.cl.n dist mayRefuse) (h : StatsOk cfg ob w)
    (hd : FiniteDists ob.cl.n dist) {s : Stats ℝ} (hrun : getStats cfg spi (some ob) true w = some ((.ok, some s), w')) (ha : 0 < s.numAssigned) : StatsConsistent (· ≤ ·) s := by
  obtain ⟨lb, hlb, hk, hv, hS, hne⟩ := stats_of_ok hm h hrun
  exact consistent_real h.config hk hv (fun p q hp hq => of_decide_eq_true (hd.nonneg p q hp hq)) hS (C20_extremes hm h hd hrun hlb) (hne ha)

theorem RelErr.nearlyLe {ε x y : ℝ} {a b : Dbl} (h1 : RelErr ε x a) (h2 : RelErr ε y b) (hε : 0 ≤ ε) (hε1 : ε ≤ 1) (hle : x ≤ y) : NearlyLe ε a b := by
  obtain ⟨x', rfl, hx⟩ := h1
  obtain ⟨y', rfl, hy⟩ := h2
  refine ⟨x', y', rfl, rfl, ?_⟩
  rw [abs_le] at hx hy
  have e1 : x' ≤ (1 + ε) * x := by linarith [hx.2]
  have e2 : (1 - ε) * y ≤ y' := by linarith [hy.1]
  calc (1 - ε) * x' ≤ (1 - ε) * ((1 + ε) * x) := mul_le_mul_of_nonneg_left e1 (by linarith)
    _ = (1 + ε) * ((1 - ε) * x) := by ring
    _ ≤ (1 + ε) * ((1 - ε) * y) := mul_le_mul_of_nonneg_left (mul_le_mul_of_nonneg_left hle (by linarith)) (by linarith)
    _ ≤ (1 + ε) * y' := mul_le_mul_of_nonneg_left e2 (by linarith)

/-- C84 for data sets of `double` values: the same, up to relative errors of at most (dimensions + pairs + 16) 2^-52, where `pairs` is the number of pairs of points with the same cluster, which must not
exceed 2^51. -/
theorem C84_double {cfg : Cfg} {ds : DataSet Dbl} (hmod : ds.Moderate) {ob : ClObj} {w w' : World} (h : StatsOk cfg ob w) (hn : ob.cl.n = ds.n) {s : Stats Dbl} {lb : Blk Int}
    (hrun : getStats cfg (builtinSpi (some ds)) (some ob) true w = some ((.ok, some s), w')) (hlb : ob.cl.label = some lb) (hN : (pairsWithin cfg lb.buf ds.n).length ≤ 2 ^ 51) (ha : 0 < s.numAssigned) :
    StatsConsistent (NearlyLe ((ds.dims + (pairsWithin cfg lb.buf ds.n).length + 16 : Nat) * 2 ^ (-52 : ℤ))) s := by
  obtain ⟨t, hS, hE, -, hT⟩ := C78_stats hmod h hn hrun hlb hN
  obtain ⟨lb', hlb', hk, hv, hS', hne⟩ := stats_of_ok (dist := ds.dist) (mayRefuse := False) (by rw [hn]; exact builtinMatrix hmod.finite.complete) h hrun
  rw [hlb] at hlb'
  cases hlb'
  rw [hn] at hv hne
  have hC := consistent_real h.config hk hv (fun p q _ _ => eudist_nonneg ds p q) hS hE (hne ha)
  have hd := hmod.dims
  have hn64 : ds.n ≤ 2 ^ 64 := by
    have hroom := h.room.2
    rw [hn] at hroom
    rcases Nat.lt_or_ge ds.n 2 with h0 | h0
    · exact (show ds.n ≤ 1 by omega).trans (by norm_num)
    · have : ds.n * 1 ≤ ds.n * (ds.n - 1) := Nat.mul_le_mul_left _ (by omega)
      omega
  have hsmall : ds.dims + (pairsWithin cfg lb.buf ds.n).length + 16 ≤ 2 ^ 52 := by omega
  generalize hK : ds.dims + (pairsWithin cfg lb.buf ds.n).length + 16 = K at hsmall hT ⊢
  have hε : (0 : ℝ) ≤ (K : ℝ) * 2 ^ (-52 : ℤ) := mul_nonneg (Nat.cast_nonneg _) (zpow2_pos _).le
  have hε1 : (K : ℝ) * 2 ^ (-52 : ℤ) ≤ 1 := by
    have h1 : (K : ℝ) ≤ 2 ^ (52 : ℕ) := by exact_mod_cast hsmall
    calc (K : ℝ) * 2 ^ (-52 : ℤ) ≤ 2 ^ (52 : ℕ) * 2 ^ (-52 : ℤ) := mul_le_mul_of_nonneg_right h1 (zpow2_pos _).le
      _ = 1 := by norm_num
  have hnat : ∀ m, m ≤ ds.n → RelErr ((K : ℝ) * 2 ^ (-52 : ℤ)) (FloatOps.ofNat m) (FloatOps.ofNat m : Dbl) := fun m hm => (rounded_ofNat (hm.trans hn64)).relErr (by omega) hsmall
  have hszmax : ∃ c, t.maxSize = (members lb.buf ds.n c).length := by
    obtain ⟨c, -, e⟩ := hS.maxSize.2 (hne ha)
    exact ⟨c, e⟩
  have hszmin : ∃ c, t.minSize = (members lb.buf ds.n c).length := by
    obtain ⟨c, -, e⟩ := hS.minSize.2 (hne ha)
    exact ⟨c, e⟩
  have hle : ∀ c, (members lb.buf ds.n c).length ≤ ds.n := fun c => (List.length_filter_le _ _).trans (by rw [List.length_range])
  refine ⟨?_, ?_, ?_, ⟨?_, ?_⟩, ?_, ?_, ?_, ?_, ?_, ?_, ?_⟩
  · rw [hT.populated, hT.numClusters]; exact hC.populated
  · rw [hT.populated, hT.numAssigned, hT.numPoints]; exact hC.assigned
  · rw [hT.minSize, hT.maxSize, hT.populated, hT.numAssigned]; exact hC.sizes
  · rw [hT.minSize]
    obtain ⟨c, e⟩ := hszmin
    exact (hnat _ (by rw [e]; exact hle c)).nearlyLe hT.avgSize hε hε1 hC.avgSize.1
  · rw [hT.maxSize]
    obtain ⟨c, e⟩ := hszmax
    exact hT.avgSize.nearlyLe (hnat _ (by rw [e]; exact hle c)) hε hε1 hC.avgSize.2
  · exact (relErr_zero (ε := (K : ℝ) * 2 ^ (-52 : ℤ))).nearlyLe hT.minDist hε hε1 hC.nonneg
  · exact hT.minDist.nearlyLe hT.avgMin hε hε1 hC.min_avgMin
  · exact hT.avgMin.nearlyLe hT.avgUnweighted hε hε1 hC.avgMin_avg
  · exact hT.avgUnweighted.nearlyLe hT.avgMax hε hε1 hC.avg_avgMax
  · exact hT.avgMax.nearlyLe hT.maxDist hε hε1 hC.avgMax_max
  · exact hT.minDist.nearlyLe hT.avgWeighted hε hε1 hC.weighted.1
  · exact hT.avgWeighted.nearlyLe hT.maxDist hε hε1 hC.weighted.2

/-! ### Examples -/

theorem realLine_sqd (p q : Nat) (hp : p < 6) (hq : q < 6) : (realLine 1 0).sqd p q = ((realLine 1 0).coord p 0 - (realLine 1 0).coord q 0) * ((realLine 1 0).coord p 0 - (realLine 1 0).coord q 0) := zero_add _

theorem realLine_range (p : Nat) (hp : p < 6) : 0 ≤ (realLine 1 0).coord p 0 ∧ (realLine 1 0).coord p 0 ≤ 20 := by
  interval_cases p <;> simp [DataSet.coord, realLine, DataSet.buf, Buf.ofList, Buf.get] <;> norm_num

theorem realLine_finite : FiniteDists 6 (realLine 1 0).dist where
  order := realLaws
  num _ _ _ _ := realNum _
  nonneg p q _ _ := decide_eq_true (real_dist_nonneg _ p q)
  finite p q hp hq := by
    refine decide_eq_true ?_
    show Real.sqrt _ ≤ (2 : ℝ) ^ 1024
    rw [realLine_sqd p q hp hq, Real.sqrt_mul_self_eq_abs]
    obtain ⟨h1, h2⟩ := realLine_range p hp
    obtain ⟨h3, h4⟩ := realLine_range q hq
    have : |(realLine 1 0).coord p 0 - (realLine 1 0).coord q 0| ≤ 20 := abs_le.2 ⟨by linarith, by linarith⟩
    exact this.trans ((show (20 : ℝ) ≤ 2 ^ 5 by norm_num).trans (pow_le_pow_right₀ (by norm_num) (by norm_num)))
  symm p q hp hq := by
    show Real.sqrt _ = Real.sqrt _
    rw [realLine_sqd p q hp hq, realLine_sqd q p hq hp]
    congr 1
    ring
  zeroNum := realNum _
  maxNum := realNum _

/-- For six points on a line and the clusters {0, 2, 3}, {4} and {1, 5}, the call succeeds and finds assigned points, so that the statistics fit together. -/
example : ∃ s w', getStats sampleCfg (builtinSpi (some (realLine 1 0))) (some (hiObj 6 4 (some ⟨6, statLabels⟩))) true (sampleWorld [5, 6]) = some ((.ok, some s), w') ∧ 0 < s.numAssigned ∧
    StatsConsistent (· ≤ ·) s := by
  have hok : StatsOk sampleCfg (hiObj 6 4 (some ⟨6, statLabels⟩)) (sampleWorld [5, 6]) := statsOk_sample (by decide +kernel)
  have hm := builtinMatrix (realLine_exact 1 0).complete
  obtain ⟨e, s, w', lb, h1, h2, -, h3⟩ := C20_stats hm hok (by decide +kernel) (by decide) (realLine_exact 1 0).init rfl
  have hnf : (sampleWorld [5, 6]).NoFail := fun _ _ => rfl
  rcases h3 with ⟨rfl, -, h3, -⟩ | ⟨-, -, ⟨-, h3⟩ | ⟨-, h3 | h3⟩⟩
  · cases h2
    have ha : 0 < s.numAssigned := by
      rw [h3.assigned]
      decide +kernel
    exact ⟨s, w', h1, ha, C84_exact hm hok realLine_finite h1 ha⟩
  · exact absurd hnf h3
  · exact absurd hnf h3
  · exact h3.elim

/-- The same with `double` coordinates. There are four pairs and one dimension. -/
example : ∃ s w', getStats sampleCfg (builtinSpi (some lineDbl)) (some (hiObj 6 4 (some ⟨6, statLabels⟩))) true (sampleWorld [5, 6]) = some ((.ok, some s), w') ∧ 0 < s.numAssigned ∧
    StatsConsistent (NearlyLe (21 * 2 ^ (-52 : ℤ))) s := by
  have hok : StatsOk sampleCfg (hiObj 6 4 (some ⟨6, statLabels⟩)) (sampleWorld [5, 6]) := statsOk_sample (by decide +kernel)
  obtain ⟨e, s, w', lb, h1, h2, -, h3⟩ := C20_stats (builtinMatrix lineDbl_finite.complete) hok (by decide +kernel) (by decide) rfl rfl
  have hnf : (sampleWorld [5, 6]).NoFail := fun _ _ => rfl
  rcases h3 with ⟨rfl, -, h3, -⟩ | ⟨-, -, ⟨-, h3⟩ | ⟨-, h3 | h3⟩⟩
  · cases h2
    have hp : pairsWithin sampleCfg statLabels 6 = [(0, 2), (0, 3), (1, 5), (2, 3)] := by decide +kernel
    have ha : 0 < s.numAssigned := by
      rw [h3.assigned]
      decide +kernel
    refine ⟨s, w', h1, ha, ?_⟩
    have h5 := C84_double lineDbl_moderate hok rfl h1 rfl (by rw [show lineDbl.n = 6 from rfl, hp]; norm_num) ha
    rw [show lineDbl.n = 6 from rfl, hp] at h5
    exact_mod_cast h5
  · exact absurd hnf h3
  · exact absurd hnf h3
  · exact h3.elim

/-- The condition that some point is assigned is needed: if no point is assigned, the smallest distance that is reported exceeds the largest, and the smallest cluster is larger than the largest. -/
theorem C84_fails_unassigned : ∃ s w', getStats sampleCfg (builtinSpi (some (realLine 1 0))) (some (hiObj 6 4 (some ⟨6, Buf.ofList (List.replicate 6 sampleCfg.na)⟩))) true (sampleWorld [5, 6]) = some ((.ok, some s), w') ∧
    s.numAssigned = 0 ∧ s.maxDist < s.minDist ∧ s.maxSize < s.minSize := by
  have hok : StatsOk sampleCfg (hiObj 6 4 (some ⟨6, Buf.ofList (List.replicate 6 sampleCfg.na)⟩)) (sampleWorld [5, 6]) := statsOk_sample (by decide +kernel)
  have hm := builtinMatrix (realLine_exact 1 0).complete
  obtain ⟨e, s, w', lb, h1, h2, -, h3⟩ := C20_stats hm hok (by decide +kernel) (by decide) (realLine_exact 1 0).init rfl
  have hnf : (sampleWorld [5, 6]).NoFail := fun _ _ => rfl
  rcases h3 with ⟨rfl, -, h3, h4⟩ | ⟨-, -, ⟨-, h3⟩ | ⟨-, h3 | h3⟩⟩
  · cases h2
    have h5 := h4 (by decide +kernel)
    refine ⟨s, w', h1, ?_, ?_, ?_⟩ <;> rw [h5]
    · rfl
    · show (0 : ℝ) < 2 ^ 1024
      positivity
    · decide
  · exact absurd hnf h3
  · exact absurd hnf h3
  · exact h3.elim

end Scc
