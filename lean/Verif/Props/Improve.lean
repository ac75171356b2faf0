/-
Property C86: hierarchical clustering of an existing clustering does not make its statistics worse. The specification is in Spec/Improve.lean.
-/
import Verif.Proofs.Improve
import Verif.Props.HiClearDouble
import Verif.Props.Rival

namespace Scc

section
variable {F : Type} [FloatOps F]

/-- What a successful call on a non-empty clustering leaves, for the statistics. -/
theorem refined_of_ok {cfg : Cfg} {dist : Nat → Nat → F} {hi : HiEnv F} (hhi : hi.Ok) {spi : Spi F} {mayRefuse : Prop} {S : Nat} {ob ob1 : ClObj} (hd : DistLaws ob.cl.n dist)
    (hs : MetricOk spi ob.cl.n dist mayRefuse) {batch : Bool} {w w' : World} (hc : HiCallOk cfg S ob w) (hw : WellSpread S dist ob.cl) {w0 : World} (h0 : StatsOk cfg ob w0) (hne : ob.cl.numClusters ≠ 0)
    (hr : hierarchical cfg hi spi S batch (some ob) w = some ((.ok, some ob1), w')) :
    ∃ b, ob1.cl.label = some b ∧ ob1.cl.n = ob.cl.n ∧ StatsOk cfg ob1 w' ∧ 2 ≤ S ∧ HiRefines cfg S ob.cl.n ob.cl.numClusters (ptrBuf ob.cl.label) ob1.cl.numClusters b.buf := by
  have hS := hiSize hhi hd hs batch hc hr
  obtain ⟨e, p, w2, h1, h2⟩ := C16_partial hhi hd hs batch hc hne hw.2
  rw [hr] at h1
  cases h1
  obtain ⟨-, cl, b, hp, hn, hlb, hlive, -, href⟩ := h2 rfl
  cases hp
  refine ⟨b, hlb, hn, ⟨h0.config, ?_, ?_, ?_⟩, hS, href⟩
  · dsimp only
    rw [hlb]
    exact hlive
  · intro _ lb hlb'
    dsimp only at hlb' ⊢
    rw [hlb] at hlb'
    cases hlb'
    rw [hn]
    exact href.valid
  · dsimp only
    rw [hn]
    exact h0.room

/-- C86. With any back end: when the statistics of a non-empty clustering are asked for, before and after hierarchical clustering divides its clusters, the same points are assigned, there are no fewer clusters, none of
the clusters is empty or has `2 * S` points, and neither the largest cluster, nor the largest distance nor (in the other direction) the smallest distance within clusters got worse. -/
theorem C86_improved {cfg : Cfg} {dist : Nat → Nat → F} {hi : HiEnv F} (hhi : hi.Ok) {spi : Spi F} {mayRefuse : Prop} {S : Nat} {ob ob1 : ClObj} (hd : DistLaws ob.cl.n dist) (hs : MetricOk spi ob.cl.n dist mayRefuse)
    (hm : MatrixOk spi ob.cl.n dist mayRefuse) (hf : FiniteDists ob.cl.n dist) {batch : Bool} {w0 w0' w w' w1 : World} (h0 : StatsOk cfg ob w0) (hc : HiCallOk cfg S ob w) (hw : WellSpread S dist ob.cl) {s0 s1 : Stats F}
    (hr0 : getStats cfg spi (some ob) true w0 = some ((.ok, some s0), w0')) (hr : hierarchical cfg hi spi S batch (some ob) w = some ((.ok, some ob1), w'))
    (hr1 : getStats cfg spi (some ob1) true w' = some ((.ok, some s1), w1)) : StatsImproved S s0 s1 := by
  have hok : ∀ {o : ClObj} {v v' : World} {s : Stats F}, MatrixOk spi o.cl.n dist mayRefuse → StatsOk cfg o v → getStats cfg spi (some o) true v = some ((.ok, some s), v') → 0 < o.cl.numClusters := by
    intro o v v' s hm' h hrun
    by_contra hbad
    obtain ⟨v1, h1, -⟩ := C20_rejects hm' h (fun h => hbad h.2.1)
    rw [hrun] at h1
    cases h1
  have hpos := hok hm h0 hr0
  obtain ⟨b, hlb, hn, h1, hS, href⟩ := refined_of_ok hhi hd hs hc hw h0 (by omega) hr
  have hm1 : MatrixOk spi ob1.cl.n dist mayRefuse := by rw [hn]; exact hm
  have hf1 : FiniteDists ob1.cl.n dist := by rw [hn]; exact hf
  obtain ⟨lb0, hl0, hk0, hv0, hA0, -⟩ := stats_of_ok hm h0 hr0
  obtain ⟨lb1, hl1, -, -, hA1, -⟩ := stats_of_ok hm1 h1 hr1
  have hE0 := C20_extremes hm h0 hf hr0 hl0
  have hE1 := C20_extremes hm1 h1 hf1 hr1 hl1
  have hpos1 := hok hm1 h1 hr1
  rw [hlb] at hl1
  cases hl1
  rw [hl0] at href
  rw [hn] at hA1 hE1
  exact improved h0.config hS hk0 hv0 hpos1 href hf hA0 hA1 hE0 hE1

end

/-- C86 for the sum of the distances within clusters: if addition does not round, it does not grow. -/
theorem C86_sum {F : Type} [FloatOps F] (hadd : ExactAdd F) (hmono : AddMono F) {cfg : Cfg} {dist : Nat → Nat → F} {hi : HiEnv F} (hhi : hi.Ok) {spi : Spi F} {mayRefuse : Prop} {S : Nat} {ob ob1 : ClObj}
    (hd : DistLaws ob.cl.n dist) (hs : MetricOk spi ob.cl.n dist mayRefuse) (hm : MatrixOk spi ob.cl.n dist mayRefuse) (hf : FiniteDists ob.cl.n dist) {batch : Bool} {w0 w0' w w' w1 : World} (h0 : StatsOk cfg ob w0)
    (hc : HiCallOk cfg S ob w) (hw : WellSpread S dist ob.cl) {s0 s1 : Stats F}
    (hr0 : getStats cfg spi (some ob) true w0 = some ((.ok, some s0), w0')) (hr : hierarchical cfg hi spi S batch (some ob) w = some ((.ok, some ob1), w'))
    (hr1 : getStats cfg spi (some ob1) true w' = some ((.ok, some s1), w1)) : FloatOps.le s1.sumDists s0.sumDists = true := by
  obtain ⟨lb0, hl0, hk0, hv0, hA0, -⟩ := stats_of_ok hm h0 hr0
  have hpos : ob.cl.numClusters ≠ 0 := by
    intro e
    obtain ⟨v1, h1, -⟩ := C20_rejects hm h0 (fun h => absurd h.2.1 (by omega))
    rw [hr0] at h1
    cases h1
  obtain ⟨b, hlb, hn, h1, hS, href⟩ := refined_of_ok hhi hd hs hc hw h0 hpos hr
  obtain ⟨lb1, hl1, hk1, hv1, hA1, -⟩ := stats_of_ok (dist := dist) (mayRefuse := mayRefuse) (by rw [hn]; exact hm) h1 hr1
  rw [hlb] at hl1
  cases hl1
  rw [hl0] at href
  rw [hn] at hA1 hv1
  rw [hA0.sumDists, hA1.sumDists, sum_pairsWithin hadd h0.config hf.symm hk0 hv0, sum_pairsWithin hadd h0.config hf.symm hk1 hv1]
  refine sumOf_sublist hadd hmono hf.zeroNum hf.order ((href.pairs h0.config hk0).map _) fun x hx => ?_
  obtain ⟨p, hp, rfl⟩ := List.mem_map.1 hx
  obtain ⟨h1, h2⟩ := mem_upperPairs_mem (List.mem_filter.1 hp).1
  exact hf.nonneg _ _ (List.mem_range.1 h1) (List.mem_range.1 h2)

/-- Real numbers have such an addition. -/
theorem realMono : AddMono ℝ := fun _ _ c h => decide_eq_true (add_le_add_right (of_decide_eq_true h) c)

theorem intMono : AddMono Int := fun _ _ c h => decide_eq_true (Int.add_le_add_left (of_decide_eq_true h) c)

theorem RelErr.mono {ε ε' x : ℝ} {d : Dbl} (h : RelErr ε x d) (hle : ε ≤ ε') (hx : 0 ≤ x) : RelErr ε' x d := by
  obtain ⟨y, h1, h2⟩ := h
  exact ⟨y, h1, h2.trans (mul_le_mul_of_nonneg_right hle hx)⟩

/-- C86 for data sets of `double` values: the counts, sizes and extreme distances as computed do not get worse, and the sum of distances does not grow by more than relative errors of at most
(dimensions + pairs + 16) 2^-52, where `pairs` is the number of pairs of points with the same cluster before, which must not exceed 2^51. -/
theorem C86_double {cfg : Cfg} {ds : DataSet Dbl} (hmod : ds.Moderate) {hi : HiEnv Dbl} (hhi : hi.Ok) {S : Nat} {ob ob1 : ClObj} (hn : ob.cl.n = ds.n) {batch : Bool} {w0 w0' w w' w1 : World} (h0 : StatsOk cfg ob w0)
    (hc : HiCallOk cfg S ob w) (hcop : ds.CopiesBelow (2 * S)) {s0 s1 : Stats Dbl} (hN : (pairsWithin cfg (ptrBuf ob.cl.label) ds.n).length ≤ 2 ^ 51)
    (hr0 : getStats cfg (builtinSpi (some ds)) (some ob) true w0 = some ((.ok, some s0), w0'))
    (hr : hierarchical cfg hi (builtinSpi (some ds)) S batch (some ob) w = some ((.ok, some ob1), w')) (hr1 : getStats cfg (builtinSpi (some ds)) (some ob1) true w' = some ((.ok, some s1), w1)) :
    StatsImproved S s0 s1 ∧ NearlyLe ((ds.dims + (pairsWithin cfg (ptrBuf ob.cl.label) ds.n).length + 16 : Nat) * 2 ^ (-52 : ℤ)) s1.sumDists s0.sumDists := by
  have hd : DistLaws ob.cl.n ds.dist := by rw [hn]; exact hmod.finite.metric.laws
  have hs : MetricOk (builtinSpi (some ds)) ob.cl.n ds.dist False := by rw [hn]; exact builtinMetric hmod.finite.metric
  have hm : MatrixOk (builtinSpi (some ds)) ob.cl.n ds.dist False := by rw [hn]; exact builtinMatrix hmod.finite.complete
  have hf : FiniteDists ob.cl.n ds.dist := by rw [hn]; exact hmod.finiteDists
  have hw := hcop.wellSpread hmod hn
  refine ⟨C86_improved hhi hd hs hm hf h0 hc hw hr0 hr hr1, ?_⟩
  obtain ⟨lb0, hl0, hk0, hv0, hA0, -⟩ := stats_of_ok hm h0 hr0
  have hpos : ob.cl.numClusters ≠ 0 := by
    intro e
    obtain ⟨v1, h1, -⟩ := C20_rejects hm h0 (fun h => absurd h.2.1 (by omega))
    rw [hr0] at h1
    cases h1
  obtain ⟨b, hlb, hn1, h1, hS, href⟩ := refined_of_ok hhi hd hs hc hw h0 hpos hr
  rw [hl0] at href hN ⊢
  change (pairsWithin cfg lb0.buf ds.n).length ≤ 2 ^ 51 at hN
  rw [hn] at href
  have hsub := (href.pairs h0.config hk0).length_le
  change (pairsWithin cfg b.buf ds.n).length ≤ (pairsWithin cfg lb0.buf ds.n).length at hsub
  obtain ⟨t0, -, -, hs0, ht0⟩ := C78_stats hmod h0 hn hr0 hl0 hN
  obtain ⟨t1, -, -, hs1, ht1⟩ := C78_stats hmod h1 (hn1.trans hn) hr1 hlb (hsub.trans hN)
  have hle : t1.sumDists ≤ t0.sumDists := by
    rw [hs0, hs1]
    exact href.sum_le h0.config hk0 fun p q _ _ => eudist_nonneg ds p q
  have hnn : 0 ≤ t1.sumDists := by
    rw [hs1]
    refine List.sum_nonneg fun x hx => ?_
    obtain ⟨p, -, rfl⟩ := List.mem_map.1 hx
    exact eudist_nonneg ds _ _
  have hdims := hmod.dims
  change NearlyLe ((ds.dims + (pairsWithin cfg lb0.buf ds.n).length + 16 : Nat) * 2 ^ (-52 : ℤ)) s1.sumDists s0.sumDists
  have hsmall : ds.dims + (pairsWithin cfg lb0.buf ds.n).length + 16 ≤ 2 ^ 52 := by omega
  have hε1 : ((ds.dims + (pairsWithin cfg lb0.buf ds.n).length + 16 : Nat) : ℝ) * 2 ^ (-52 : ℤ) ≤ 1 := by
    have h1 : ((ds.dims + (pairsWithin cfg lb0.buf ds.n).length + 16 : Nat) : ℝ) ≤ 2 ^ (52 : ℕ) := by exact_mod_cast hsmall
    calc _ ≤ (2 : ℝ) ^ (52 : ℕ) * 2 ^ (-52 : ℤ) := mul_le_mul_of_nonneg_right h1 (zpow2_pos _).le
      _ = 1 := by norm_num
  refine (ht1.sumDists.mono (mul_le_mul_of_nonneg_right ?_ (zpow2_pos _).le) hnn).nearlyLe ht0.sumDists (mul_nonneg (Nat.cast_nonneg _) (zpow2_pos _).le) hε1 hle
  exact Nat.cast_le.2 (by omega)

/-! ### Examples -/

theorem statsOk_nine : StatsOk sampleCfg (hiObj 9 3 (some ⟨6, nineLabels⟩)) (sampleWorld [5, 6]) where
  config := sampleCfg_valid
  live := le_refl ({5, 6} : Multiset Nat)
  labels h lb hlb := (hiCallOk_nine.labels (by omega) lb hlb).1
  room := by show 9 * 8 ≤ _ ∧ 9 * 8 < _; decide

theorem nineData_finite : FiniteDists 9 nineData.dist where
  order := intLaws
  num _ _ _ _ := int_isNum _
  nonneg := by
    have : ∀ p, p < 9 → ∀ q, q < 9 → FloatOps.le FloatOps.zero (nineData.dist p q) = true := by decide +kernel
    exact fun p q hp hq => this p hp q hq
  finite := by
    have : ∀ p, p < 9 → ∀ q, q < 9 → FloatOps.le (nineData.dist p q) FloatOps.dblMax = true := by decide +kernel
    exact fun p q hp hq => this p hp q hq
  symm := by
    have : ∀ p, p < 9 → ∀ q, q < 9 → nineData.dist p q = nineData.dist q p := by decide +kernel
    exact fun p q hp hq => this p hp q hq
  zeroNum := int_isNum _
  maxNum := int_isNum _

/-- The hypotheses (also those on addition) hold for nine points on a line with three clusters, the largest of which is divided. The largest distance falls from 27 to 10, and the sum of distances from 137 to 25. -/
example : sampleEnv.Ok ∧ ExactAdd Int ∧ AddMono Int ∧ DistLaws 9 nineData.dist ∧ Nonempty (MetricOk (builtinSpi (some nineData)) 9 nineData.dist False) ∧ Nonempty (MatrixOk (builtinSpi (some nineData)) 9 nineData.dist False) ∧ FiniteDists 9 nineData.dist ∧
    StatsOk sampleCfg (hiObj 9 3 (some ⟨6, nineLabels⟩)) (sampleWorld [5, 6]) ∧ HiCallOk sampleCfg 2 (hiObj 9 3 (some ⟨6, nineLabels⟩)) (sampleWorld [5, 6]) ∧
    WellSpread 2 nineData.dist (hiObj 9 3 (some ⟨6, nineLabels⟩)).cl ∧
    statSummary (getStats sampleCfg (builtinSpi (some nineData)) (some (hiObj 9 3 (some ⟨6, nineLabels⟩))) true (sampleWorld [5, 6])) =
      some (.ok, [9, 8, 3, 3, 1, 5], [2, 137, 0, 27, 0, 9, 8, 4]) ∧
    statSummary ((hierarchical sampleCfg sampleEnv (builtinSpi (some nineData)) 2 false (some (hiObj 9 3 (some ⟨6, nineLabels⟩))) (sampleWorld [5, 6])).bind fun r =>
      getStats sampleCfg (builtinSpi (some nineData)) r.1.2 true r.2) = some (.ok, [9, 8, 4, 4, 1, 3], [2, 25, 0, 10, 1, 3, 3, 2]) :=
  ⟨sampleEnv_ok, intExact, intMono, (intMetric nineData_complete).laws, ⟨builtinMetric (intMetric nineData_complete)⟩, ⟨builtinMatrix nineData_complete⟩, nineData_finite, statsOk_nine, hiCallOk_nine,
    ⟨fun h => absurd h (by decide), by show ∀ c, c < 3 → Spread 2 nineData.dist (members nineLabels 9 c); unfold Spread; decide +kernel⟩, by decide +kernel, by decide +kernel⟩

/-- Six points in six dimensions: the first two are the same, and each of the others has the distance 6 from each other of them. -/
def cubeData : DataSet Int := mkData 6 [0, 0, 0, 0, 0, 0, 0, 0, 0, 0, 0, 0, 0, 0, 0, 0, 0, 0, 3, 3, 3, 3, 0, 0, 3, 3, 0, 0, 3, 3, 0, 0, 3, 3, 3, 3]

/-- The first two points are a cluster, and the others are another. -/
def cubeLabels : Buf Int := Buf.ofList [0, 0, 1, 1, 1, 1]

/-- Averages can grow: when the second cluster is divided, the average of the largest distances of clusters and the average distance, which are 3, become 4. All divisions are exact. -/
theorem C86_averages_grow : HiCallOk sampleCfg 2 (hiObj 6 2 (some ⟨6, cubeLabels⟩)) (sampleWorld [5, 6]) ∧ WellSpread 2 cubeData.dist (hiObj 6 2 (some ⟨6, cubeLabels⟩)).cl ∧
    statSummary (getStats sampleCfg (builtinSpi (some cubeData)) (some (hiObj 6 2 (some ⟨6, cubeLabels⟩))) true (sampleWorld [5, 6])) = some (.ok, [6, 6, 2, 2, 2, 4], [3, 36, 0, 6, 3, 3, 4, 3]) ∧
    statSummary ((hierarchical sampleCfg sampleEnv (builtinSpi (some cubeData)) 2 false (some (hiObj 6 2 (some ⟨6, cubeLabels⟩))) (sampleWorld [5, 6])).bind fun r =>
      getStats sampleCfg (builtinSpi (some cubeData)) r.1.2 true r.2) = some (.ok, [6, 6, 3, 3, 2, 2], [2, 12, 0, 6, 4, 4, 4, 4]) := by
  refine ⟨⟨sampleCfg_valid, le_refl ({5, 6} : Multiset Nat), ?_, by decide, by decide, by decide, ?_⟩, ⟨fun h => absurd h (by decide), ?_⟩, by decide +kernel, by decide +kernel⟩
  · intro lb h
    cases h
    decide
  · intro _ lb h
    cases h
    exact ⟨by unfold ValidLabels Unassigned; decide, .inl (by decide)⟩
  · show ∀ c, c < 2 → Spread 2 cubeData.dist (members cubeLabels 6 c)
    unfold Spread
    decide +kernel

theorem statsOk_ruler : StatsOk sampleCfg (hiObj 8 2 (some ⟨6, rulerLabels⟩)) (sampleWorld [5, 6]) where
  config := sampleCfg_valid
  live := le_refl ({5, 6} : Multiset Nat)
  labels h lb hlb := (ruler_callOk.labels (by omega) lb hlb).1
  room := by show 8 * 7 ≤ _ ∧ 8 * 7 < _; decide

/-- Without failures, statistics of a clustering with `double` distances are reported. -/
theorem stats_run {l : List ℤ} (hm : (intLine l).Moderate) (hv : (builtinSpi (some (intLine l))).valid = true) {ob : ClObj} {w : World} (hn : ob.cl.n = l.length) (h : StatsOk sampleCfg ob w) (hi : ob.cl.isInitialized sampleCfg = true) (hk : 0 < ob.cl.numClusters)
    (hnf : w.NoFail) : ∃ s w', getStats sampleCfg (builtinSpi (some (intLine l))) (some ob) true w = some ((.ok, some s), w') := by
  have hmat : MatrixOk (builtinSpi (some (intLine l))) ob.cl.n (intLine l).dist False := by rw [hn]; exact builtinMatrix hm.finite.complete
  obtain ⟨e, s, w', lb, h1, -, -, h3⟩ := C20_stats hmat h hi hk hv hn.symm
  rcases h3 with ⟨rfl, -⟩ | ⟨-, -, ⟨-, h3⟩ | ⟨-, h3 | h3⟩⟩
  · exact ⟨s, w', h1⟩
  · exact absurd hnf h3
  · exact absurd hnf h3
  · exact h3.elim

/-- With `double` distances, for eight points on a line in clusters of six and two points: all three calls succeed, and the statistics do not get worse. -/
example (batch : Bool) : ∃ s0 w0' ob1 w' s1 w1, getStats sampleCfg (builtinSpi (some (intLine rulerPlaces))) (some (hiObj 8 2 (some ⟨6, rulerLabels⟩))) true (sampleWorld [5, 6]) = some ((.ok, some s0), w0') ∧
    hierarchical sampleCfg dblEnv (builtinSpi (some (intLine rulerPlaces))) 2 batch (some (hiObj 8 2 (some ⟨6, rulerLabels⟩))) (sampleWorld [5, 6]) = some ((.ok, some ob1), w') ∧
    getStats sampleCfg (builtinSpi (some (intLine rulerPlaces))) (some ob1) true w' = some ((.ok, some s1), w1) ∧ StatsImproved 2 s0 s1 ∧ NearlyLe (33 * 2 ^ (-52 : ℤ)) s1.sumDists s0.sumDists := by
  have hmod := rulerDbl_moderate
  have hl : DistLaws 8 (intLine rulerPlaces).dist := hmod.finite.metric.laws
  have hs : MetricOk (builtinSpi (some (intLine rulerPlaces))) 8 (intLine rulerPlaces).dist False := builtinMetric hmod.finite.metric
  have hcop : (intLine rulerPlaces).CopiesBelow (2 * 2) := intLine_copies (by decide)
  have hw := hcop.wellSpread hmod (cl := (hiObj 8 2 (some ⟨6, rulerLabels⟩)).cl) rfl
  obtain ⟨s0, w0', h0⟩ := stats_run hmod rfl (ob := hiObj 8 2 (some ⟨6, rulerLabels⟩)) rfl statsOk_ruler (by decide) (by decide) (fun _ _ => rfl)
  obtain ⟨e, cl, w', M, h1, h2, -⟩ := C38_hierarchical dblEnv_ok (ob := hiObj 8 2 (some ⟨6, rulerLabels⟩)) hl hs batch ruler_callOk ⟨by decide, rfl, rfl, by decide, by decide⟩ (by unfold HiTooBig; decide)
  rcases h2 with rfl | ⟨-, -, h2⟩
  · obtain ⟨e, p, w2, g1, g2⟩ := C16_partial dblEnv_ok (ob := hiObj 8 2 (some ⟨6, rulerLabels⟩)) hl hs batch ruler_callOk (by decide) hw.2
    rw [h1] at g1
    cases g1
    obtain ⟨hfails, cl', b, hp, hn, hlb, -, hini, href⟩ := g2 rfl
    cases hp
    obtain ⟨-, -, -, hok, -⟩ := refined_of_ok dblEnv_ok hl hs ruler_callOk hw statsOk_ruler (by decide) h1
    have hk : 0 < cl.numClusters := by
      refine Nat.pos_of_ne_zero fun e => ?_
      rcases href.valid 0 (by decide) with h3 | ⟨c, hc, -⟩
      · have h4 := (href.unassigned 0 (by decide)).1 h3
        revert h4
        unfold Unassigned
        decide
      · omega
    obtain ⟨s1, w1, h3⟩ := stats_run hmod rfl hn hok hini hk (fun _ _ => by rw [hfails]; rfl)
    have hp : (pairsWithin sampleCfg rulerLabels 8).length = 16 := by decide +kernel
    have hC := C86_double hmod dblEnv_ok rfl statsOk_ruler ruler_callOk hcop (by show (pairsWithin sampleCfg rulerLabels 8).length ≤ _; rw [hp]; norm_num) h0 h1 h3
    change _ ∧ NearlyLe (((1 + (pairsWithin sampleCfg rulerLabels 8).length + 16 : Nat) : ℝ) * 2 ^ (-52 : ℤ)) s1.sumDists s0.sumDists at hC
    rw [hp] at hC
    refine ⟨s0, w0', _, w', s1, w1, h0, h1, h3, hC.1, ?_⟩
    exact_mod_cast hC.2
  · exact absurd (fun _ _ => rfl) h2

end Scc
