/-
C88: the unit of measurement does not matter, also in `double`, when units differ by a power of two. `Rescaled`, `Options.rescaled`, `ModerateRadii`, `DataSet.RoomForMeans` and `StatsRescaled` are in Spec/Rescale.lean.
-/
import Verif.Proofs.RescaleStats
import Verif.Proofs.RescaleEst
import Verif.Props.Compare
import Verif.Props.StatsDouble
import Verif.Props.DoubleMore
import Verif.Props.Rival

namespace Scc

/-- C88 for `scc_sc_clustering`, for all methods and options without estimated radii. The data is multiplied by a power of two, mirrored and shifted, and so are the radii. Rounding errors are the same
in both calls: they have the same outcome. -/
theorem C88_sc_clustering {e : ℤ} {ds ds' : DataSet Dbl} (h : Rescaled e ds ds') {o : Options Dbl} (ho : ModerateRadii e o) (hest : NoEstimate o) (cfg : Cfg) (p : Option ClObj) (w : World) :
    scClustering cfg (builtinSpi (some ds)) o p w = scClustering cfg (builtinSpi (some ds')) (o.rescaled e) p w :=
  C68_sc_clustering h.far.toSameNear (h.options ho) hest cfg p w

/-- C88 for `scc_sc_clustering`, for all methods and options, also with estimated radii. The two estimates are made of the same rounding errors, and the two calls have the same outcome. (The size
constraint is a `uint32_t`.) -/
theorem C88_estimated {e : ℤ} {ds ds' : DataSet Dbl} (h : Rescaled e ds ds') (hr : ds.RoomForMeans) (hr' : ds'.RoomForMeans) {o : Options Dbl} (ho : ModerateRadii e o) (hS : o.sizeConstraint < 2 ^ 32)
    (cfg : Cfg) (p : Option ClObj) (w : World) : scClustering cfg (builtinSpi (some ds)) o p w = scClustering cfg (builtinSpi (some ds')) (o.rescaled e) p w := by
  rw [scClustering_same h.far.toSameNear (h.options ho) fun _ => h.estimates hr hr' (by omega)]

/-- C88 for `scc_hierarchical_clustering`. -/
theorem C88_hierarchical {e : ℤ} {ds ds' : DataSet Dbl} (h : Rescaled e ds ds') {hi : HiEnv Dbl} (he : SameEnv hi hi) {S : Nat} (hS : 0 < u32 (2 * S)) (cfg : Cfg) (batch : Bool) (p : Option ClObj) (w : World) :
    hierarchical cfg hi (builtinSpi (some ds)) S batch p w = hierarchical cfg hi (builtinSpi (some ds')) S batch p w :=
  C68_hierarchical h.far he hS cfg batch p w

/-- C88 for distances: the distance between two points is multiplied by the power of two, exactly. -/
theorem C88_distance {e : ℤ} {ds ds' : DataSet Dbl} (h : Rescaled e ds ds') {i j : Nat} (hi : i < ds.n) (hj : j < ds.n) : ds'.dist i j = (ds.dist i j).times e := (h.twin hi hj).eq

/-- C88 for `scc_get_clustering_stats`: two calls for the same clustering, one in each unit. No error is made besides the rounding errors that both calls make. (At most 2^51 pairs of points have the
same cluster.) -/
theorem C88_stats {e : ℤ} {ds ds' : DataSet Dbl} (h : Rescaled e ds ds') {cfg : Cfg} {ob : ClObj} (hn : ob.cl.n = ds.n) {w w1 v v1 : World} (hw : StatsOk cfg ob w) (hv : StatsOk cfg ob v) {s s' : Stats Dbl}
    (hN : (pairsWithin cfg (ptrBuf ob.cl.label) ds.n).length ≤ 2 ^ 51)
    (hr : getStats cfg (builtinSpi (some ds)) (some ob) true w = some ((.ok, some s), w1)) (hr' : getStats cfg (builtinSpi (some ds')) (some ob) true v = some ((.ok, some s'), v1)) :
    StatsRescaled e s s' := by
  have main : ∀ {d : DataSet Dbl}, d.Moderate → ob.cl.n = d.n → ∀ {w : World}, StatsOk cfg ob w → ∀ {t : Stats Dbl} {w1 : World}, getStats cfg (builtinSpi (some d)) (some ob) true w = some ((.ok, some t), w1) →
      ∃ lb, ob.cl.label = some lb ∧ ob.cl.numClusters ≤ cfg.clabelMax ∧ ValidLabels cfg lb.buf ob.cl.n ob.cl.numClusters ∧ StatsAre cfg d.dist ob.cl.n ob.cl.numClusters lb.buf t ∧
        (clustersFrom lb.buf ob.cl.n ob.cl.numClusters 1 = [] → t = UnpopulatedStats ob.cl.n ob.cl.numClusters) ∧ ExtremesAre d.dist ob.cl.n ob.cl.numClusters lb.buf t := by
    intro d hd hn w h t w1 hrun
    have hm : MatrixOk (builtinSpi (some d)) ob.cl.n d.dist False := by rw [hn]; exact builtinMatrix hd.finite.complete
    have hfin : FiniteDists ob.cl.n d.dist := by rw [hn]; exact hd.finiteDists
    have hok : ob.cl.isInitialized cfg = true ∧ 0 < ob.cl.numClusters ∧ (builtinSpi (some d)).valid = true ∧ (builtinSpi (some d)).numPoints = ob.cl.n := by
      by_contra hbad
      obtain ⟨w1, h1, -⟩ := C20_rejects hm h hbad
      rw [hrun] at h1
      cases h1
    obtain ⟨hi, hk, hval, hnum⟩ := hok
    obtain ⟨e, t, w2, lb, g1, g2, -, ⟨g3, -, g4, g5⟩ | ⟨-, -, g3⟩⟩ := C20_stats hm h hi hk hval hnum
    · rw [hrun] at g1
      cases g1
      exact ⟨lb, g2, (isInitialized_iff.1 hi).2.2.2.1, h.labels hk lb g2, g4, g5, C20_extremes hm h hfin hrun g2⟩
    · rw [hrun] at g1
      cases g1
      rcases g3 with ⟨g3, -⟩ | ⟨g3, -⟩ <;> cases g3
  obtain ⟨lb, hl, hk, hval, hS, hU, hE⟩ := main h.moderate hn hw hr
  obtain ⟨lb', hl', -, -, hS', hU', hE'⟩ := main h.moderate' (hn.trans h.num) hv hr'
  rw [hl] at hl'
  cases hl'
  rw [hl] at hN
  change (pairsWithin cfg lb.buf ds.n).length ≤ 2 ^ 51 at hN
  have hroom := hw.room.2
  rw [hn] at hval hS hU hE hS' hU' hE' hroom
  have hn64 : ds.n ≤ 2 ^ 64 := by
    rcases Nat.lt_or_ge ds.n 2 with h0 | h0
    · exact (show ds.n ≤ 1 by omega).trans (by norm_num)
    · have : ds.n * 1 ≤ ds.n * (ds.n - 1) := Nat.mul_le_mul_left _ (by omega)
      omega
  have hcfg := hw.config
  have hass : s'.numAssigned = s.numAssigned := by rw [hS.assigned, hS'.assigned]
  have hpop : s'.populated = s.populated := by rw [hS.populated, hS'.populated]
  by_cases h0 : clustersFrom lb.buf ds.n ob.cl.numClusters 1 = []
  · rw [hU h0, hU' h0]
    have hz : (FloatOps.zero : Dbl) = (FloatOps.zero : Dbl).times e := (InUnits.zero (e := e) (l := 0) (U := 0) 0).eq
    exact ⟨rfl, rfl, rfl, rfl, rfl, rfl, rfl, hz, fun h => absurd h (lt_irrefl _), fun _ => rfl, hz, hz, hz, hz, hz⟩
  obtain ⟨c, hc⟩ := List.exists_mem_of_ne_nil _ h0
  have hc1 := List.mem_range.1 (List.mem_filter.1 hc).1
  have hc2 : 1 ≤ (members lb.buf ds.n c).length := of_decide_eq_true (List.mem_filter.1 hc).2
  have hassn : s.numAssigned ≤ ds.n := by
    rw [hS.assigned]
    exact (List.length_filter_le _ _).trans (by rw [List.length_range])
  have hpl : s.populated ≤ ds.n := by rw [hS.populated]; exact populated_le
  have hpos : 0 < s.populated := by rw [hS.populated]; exact List.length_pos_of_ne_nil h0
  have hapos : 0 < s.numAssigned := by
    obtain ⟨x, hx⟩ := List.exists_mem_of_length_pos (show 0 < (members lb.buf ds.n c).length by omega)
    rw [hS.assigned]
    refine List.length_pos_of_mem (a := x) (List.mem_filter.2 ⟨List.mem_range.2 (mem_members.1 hx).1, decide_eq_true fun hna => ?_⟩)
    rw [(mem_members.1 hx).2] at hna
    exact na_ne hcfg hk hc1 (Option.some.inj hna)
  refine ⟨by rw [hS.points, hS'.points], hass, by rw [hS.clusters, hS'.clusters], hpop, ?_, ?_, ?_, ?_, fun _ => h.minDist hE hE' ?_, fun h => absurd h (by omega), h.maxDist hE hE', ?_, ?_, ?_, ?_⟩
  · obtain ⟨c1, m1, e1⟩ := hS.minSize.2 h0
    obtain ⟨c2, m2, e2⟩ := hS'.minSize.2 h0
    have h1 := hS.minSize.1 c2 m2
    have h2 := hS'.minSize.1 c1 m1
    omega
  · obtain ⟨c1, m1, e1⟩ := hS.maxSize.2 h0
    obtain ⟨c2, m2, e2⟩ := hS'.maxSize.2 h0
    have h1 := hS.maxSize.1 c2 m2
    have h2 := hS'.maxSize.1 c1 m1
    omega
  · rw [hS.avgSize h0, hS'.avgSize h0, hass, hpop]
  · rw [hS.sumDists, hS'.sumDists]
    exact (h.overClusters hcfg hk hval hN (by norm_num) (by norm_num) (by norm_num) fun c hc => h.clusterTotal hcfg hk hval hN hc).1.eq
  · by_cases h1 : (members lb.buf ds.n c).length = 1
    · exact Or.inl ⟨c, hc1, h1⟩
    · right
      have h0' : 0 < (members lb.buf ds.n c).length := by omega
      have h1' : 1 < (members lb.buf ds.n c).length := by omega
      have ha := mem_members.1 (List.getElem_mem h0')
      have hb := mem_members.1 (List.getElem_mem h1')
      refine ⟨_, _, fun heq => ?_, ha.1, hb.1, c, hc1, ha.2, hb.2⟩
      have := (nodup_members (b := lb.buf) (n := ds.n) (i := c)).getElem_inj_iff.1 heq
      omega
  · rw [hS.avgMin h0, hS'.avgMin h0, hpop]
    exact h.average hcfg hk hval hN (l := 600) (U := 600) (by norm_num) (by norm_num) (by norm_num) (fun c _ => InUnits.leastOf (h.clusterDists _ c)) hpos (hpl.trans hn64)
  · rw [hS.avgMax h0, hS'.avgMax h0, hpop]
    exact h.average hcfg hk hval hN (l := 600) (U := 600) (by norm_num) (by norm_num) (by norm_num) (fun c _ => InUnits.greatestOf (h.clusterDists _ c)) hpos (hpl.trans hn64)
  · rw [hS.avgWeighted h0, hS'.avgWeighted h0, hass]
    exact h.average hcfg hk hval hN (l := 664) (U := 717) (by norm_num) (by norm_num) (by norm_num) (fun c hc => h.clusterWeighted hcfg hk hval hN hn64 hc) hapos (hassn.trans hn64)
  · rw [hS.avgUnweighted h0, hS'.avgUnweighted h0, hpop]
    exact h.average hcfg hk hval hN (l := 664) (U := 653) (by norm_num) (by norm_num) (by norm_num) (fun c hc => h.clusterMean hcfg hk hval hN hc) hpos (hpl.trans hn64)

/-! ### Examples -/

theorem intLine_exact {l : List ℤ} (h : l ≠ []) : (intLine l).Exact where
  init := by
    have : l.length ≠ 0 := fun h0 => h (List.length_eq_zero_iff.1 h0)
    simp [DataSet.isInitialized, intLine, this]
  complete := (intLine_finite l).complete
  len := by
    show (l.map fun z : ℤ => Dbl.fin z).length = l.length * 1
    rw [List.length_map, Nat.mul_one]

/-- The six points mirrored, in units of a quarter, and shifted. -/
theorem mirrored_rescaled : Rescaled 2 (intLine [0, 1, 3, 7, 8, 20]) (intLine [100, 96, 88, 72, 68, 20]) where
  exact := intLine_exact (by decide)
  exact' := intLine_exact (by decide)
  moderate := intLine_moderate (by decide)
  moderate' := intLine_moderate (by decide)
  num := rfl
  dims := rfl
  coord := by
    refine ⟨fun _ => -1, fun _ => 100, fun _ => by norm_num, fun i t hi ht => ?_⟩
    obtain rfl : t = 0 := by have : t < 1 := ht; omega
    rw [intLine_coord _ hi, intLine_coord _ (show i < 6 from hi)]
    have hd : ∀ i < 6, ([100, 96, 88, 72, 68, 20] : List ℤ).getD i 0 = -1 * (4 * ([0, 1, 3, 7, 8, 20] : List ℤ).getD i 0) + 100 := by decide
    have := hd i hi
    rw [this]
    push_cast
    norm_num

theorem two_moderate : ModerateRadius 2 (.fin 2) := by
  have h1 : (2 : ℝ) ^ (-500 : ℤ) ≤ 1 := zpow_le_one_of_nonpos₀ (by norm_num) (by norm_num)
  have h2 : (2 : ℝ) ^ (3 : ℤ) ≤ 2 ^ (500 : ℤ) := zpow_le_zpow_right₀ (by norm_num) (by norm_num)
  refine ⟨2, rfl, ?_, ?_, ?_, ?_⟩ <;> rw [abs_of_pos (by norm_num)]
  · linarith
  · exact le_trans (by norm_num) h2
  · exact h1.trans (by norm_num)
  · exact le_trans (by norm_num) h2

/-- Clusters of at least two points; seeds and their neighbours are at most 2 apart. -/
noncomputable def nearOpts : Options Dbl := { (dblOpts .closestSeed .noRadius) with seedRadius := .useSupplied, seedSupplied := .fin 2 }

/-- In the second unit, the radius is 8. -/
example : (nearOpts.rescaled 2).seedSupplied = .fin 8 := by
  show Dbl.times 2 (.fin 2) = .fin 8
  unfold Dbl.times
  norm_num

example (w : World) : scClustering sampleCfg (builtinSpi (some (intLine [0, 1, 3, 7, 8, 20]))) nearOpts (some lineObj) w =
    scClustering sampleCfg (builtinSpi (some (intLine [100, 96, 88, 72, 68, 20]))) (nearOpts.rescaled 2) (some lineObj) w :=
  C88_sc_clustering mirrored_rescaled ⟨fun _ => two_moderate, fun h => (by cases h), fun h => (by cases h)⟩ ⟨fun _ h => (by cases h), fun _ h => (by cases h)⟩ sampleCfg _ w

theorem intLine_room {l : List ℤ} (h : ∀ i < l.length, ∀ j < l.length, |l.getD i 0 - l.getD j 0| ≤ 1000) : (intLine l).RoomForMeans := by
  intro i j t hi hj ht
  obtain rfl : t = 0 := by have : t < 1 := ht; omega
  rw [intLine_coord l hi, intLine_coord l hj]
  by_cases he : l.getD i 0 = l.getD j 0
  · exact Or.inl (by rw [he])
  · right
    have h1 : 1 ≤ |l.getD i 0 - l.getD j 0| := Int.one_le_abs (sub_ne_zero.2 he)
    have h2 := h i hi j hj
    have e1 : (1 : ℝ) ≤ |(l.getD i 0 : ℝ) - (l.getD j 0 : ℤ)| := by exact_mod_cast h1
    have e2 : |(l.getD i 0 : ℝ) - (l.getD j 0 : ℤ)| ≤ 1000 := by exact_mod_cast h2
    exact ⟨(zpow_le_one_of_nonpos₀ (by norm_num) (by norm_num)).trans e1, e2.trans (le_trans (show (1000 : ℝ) ≤ 2 ^ (10 : ℤ) by norm_num) (zpow_le_zpow_right₀ (by norm_num) (by norm_num)))⟩

/-- An estimated radius is used for the points that are left. -/
example (w : World) : scClustering sampleCfg (builtinSpi (some (intLine [0, 1, 3, 7, 8, 20]))) (dblOpts .closestSeed .useEstimated) (some lineObj) w =
    scClustering sampleCfg (builtinSpi (some (intLine [100, 96, 88, 72, 68, 20]))) ((dblOpts .closestSeed .useEstimated).rescaled 2) (some lineObj) w :=
  C88_estimated mirrored_rescaled (intLine_room (by decide)) (intLine_room (by decide)) ⟨fun h => (by cases h), fun h => (by cases h), fun h => (by cases h)⟩ (by show 2 < 2 ^ 32; norm_num) sampleCfg _ w

example (w : World) : hierarchical sampleCfg insertEnv (builtinSpi (some (intLine [0, 1, 3, 7, 8, 20]))) 2 false (some lineObj) w =
    hierarchical sampleCfg insertEnv (builtinSpi (some (intLine [100, 96, 88, 72, 68, 20]))) 2 false (some lineObj) w :=
  C88_hierarchical mirrored_rescaled insertEnv_same (by decide) sampleCfg false _ w

example : ∃ s s' w w', getStats sampleCfg (builtinSpi (some (intLine [0, 1, 3, 7, 8, 20]))) (some (hiObj 6 4 (some ⟨6, statLabels⟩))) true (sampleWorld [5, 6]) = some ((.ok, some s), w) ∧
    getStats sampleCfg (builtinSpi (some (intLine [100, 96, 88, 72, 68, 20]))) (some (hiObj 6 4 (some ⟨6, statLabels⟩))) true (sampleWorld [5, 6]) = some ((.ok, some s'), w') ∧
    StatsRescaled 2 s s' ∧ 0 < s.numAssigned := by
  have hok : StatsOk sampleCfg (hiObj 6 4 (some ⟨6, statLabels⟩)) (sampleWorld [5, 6]) := statsOk_sample (by decide +kernel)
  have hnf : (sampleWorld [5, 6]).NoFail := fun _ _ => rfl
  have run : ∀ {d : DataSet Dbl}, d.Moderate → d.isInitialized = true → d.n = 6 → ∃ s w, getStats sampleCfg (builtinSpi (some d)) (some (hiObj 6 4 (some ⟨6, statLabels⟩))) true (sampleWorld [5, 6]) = some ((.ok, some s), w) ∧
      0 < s.numAssigned := by
    intro d hd hi hn
    obtain ⟨e, s, w', lb, h1, h2, -, h3⟩ := C20_stats (mayRefuse := False) (dist := d.dist) (ob := hiObj 6 4 (some ⟨6, statLabels⟩)) (by show MatrixOk _ 6 _ _; rw [← hn]; exact builtinMatrix hd.finite.complete) hok
      (by decide +kernel) (by decide) hi hn
    rcases h3 with ⟨rfl, -, h3, -⟩ | ⟨-, -, ⟨-, h3⟩ | ⟨-, h3 | h3⟩⟩
    · cases h2
      refine ⟨s, w', h1, ?_⟩
      rw [h3.assigned]
      decide +kernel
    · exact absurd hnf h3
    · exact absurd hnf h3
    · exact h3.elim
  obtain ⟨s, w, h1, h3⟩ := run mirrored_rescaled.moderate mirrored_rescaled.exact.init rfl
  obtain ⟨s', w', h2, -⟩ := run mirrored_rescaled.moderate' mirrored_rescaled.exact'.init rfl
  have hp : pairsWithin sampleCfg statLabels 6 = [(0, 2), (0, 3), (1, 5), (2, 3)] := by decide +kernel
  exact ⟨s, s', w, w', h1, h2, C88_stats mirrored_rescaled rfl hok hok (by show (pairsWithin sampleCfg statLabels 6).length ≤ _; rw [hp]; norm_num) h1 h2, h3⟩

end Scc
