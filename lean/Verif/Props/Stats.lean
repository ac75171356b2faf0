/-
Properties of `scc_get_clustering_stats`: C20. `StatsAre`, `ExtremesAre`, `pairsWithin`, `StatsOk`, `FiniteDists`, `ExactAdd` and `MatrixOk` are in Spec/Stats.lean.
-/
import Verif.Proofs.StatsPure
import Verif.Proofs.HiBuiltin

namespace Scc

variable {F : Type} [FloatOps F]

/-- The built-in back end satisfies the hypothesis on `get_dist_matrix`, whatever numbers are in the data set. -/
theorem builtinMatrix {ds : DataSet F} (h : ds.Complete) : MatrixOk (builtinSpi (some ds)) ds.n ds.dist False := by
  intro len points L out w hp hlen hL hpos hlive hout
  subst hlen
  show WpM (useK (arrIds points) (distMatrixK ds L.length points out) >>= fun r => pure (some r)) w _
  rw [wpM_bind, wpM_useK]
  refine ⟨hlive, (distMatrixK_spec h hp hL hout).mono ?_⟩
  rintro out' ⟨k1, k2, -⟩
  rw [wpM_pure]
  exact ⟨rfl, rfl, rfl, k1, k2⟩

/-- C20. For a valid, non-empty clustering of the points of the data set the call succeeds and reports the statistics of the clustering, or it reports lack of memory or failure of the distance
functions, with all statistics zero. Memory is as before; a success leaves the latest error alone. -/
theorem C20_stats {cfg : Cfg} {spi : Spi F} {dist : Nat → Nat → F} {mayRefuse : Prop} {ob : ClObj} {w : World} (hm : MatrixOk spi ob.cl.n dist mayRefuse) (h : StatsOk cfg ob w)
    (hi : ob.cl.isInitialized cfg = true) (hk : 0 < ob.cl.numClusters) (hv : spi.valid = true) (hn : spi.numPoints = ob.cl.n) :
    ∃ e s w' lb, getStats cfg spi (some ob) true w = some ((e, some s), w') ∧ ob.cl.label = some lb ∧ w'.live = w.live ∧
      (e = .ok ∧ w'.err = w.err ∧ StatsAre cfg dist ob.cl.n ob.cl.numClusters lb.buf s ∧ (clustersFrom lb.buf ob.cl.n ob.cl.numClusters 1 = [] → s = UnpopulatedStats ob.cl.n ob.cl.numClusters) ∨
       s = nullStats ∧ w'.err.code = e ∧ (e = .noMemory ∧ ¬ w.NoFail ∨ e = .distSearch ∧ (¬ w.NoFail ∨ mayRefuse))) := by
  obtain ⟨⟨e, o⟩, w', h1, h2, ⟨-, -, -, -, lb, h3, ⟨h4, h5, s, h6, h7⟩ | ⟨h4, h5, h6⟩⟩ | ⟨h3, -⟩⟩ := getStats_spec hm h
  · dsimp only at h4 h6
    subst h4 h6
    have h8 := computed_statsAre h.config (isInitialized_iff.1 hi).2.2.2.1 (h.labels hk lb h3) h7
    exact ⟨.ok, s, w', lb, h1, h3, h2, Or.inl ⟨rfl, h5, h8.1, h8.2⟩⟩
  · dsimp only at h4
    subst h4
    exact ⟨e, nullStats, w', lb, h1, h3, h2, Or.inr ⟨rfl, h5, h6⟩⟩
  · exact absurd ⟨hi, hk, hv, hn⟩ h3

/-- C20, smallest and largest distance: if distances are finite numbers, not negative and symmetric, the reported values are the extremes of the distances within clusters. -/
theorem C20_extremes {cfg : Cfg} {spi : Spi F} {dist : Nat → Nat → F} {mayRefuse : Prop} {ob : ClObj} {w : World} (hm : MatrixOk spi ob.cl.n dist mayRefuse) (h : StatsOk cfg ob w)
    (hd : FiniteDists ob.cl.n dist) {s : Stats F} {w' : World} {lb : Blk Int} (hrun : getStats cfg spi (some ob) true w = some ((.ok, some s), w')) (hlb : ob.cl.label = some lb) :
    ExtremesAre dist ob.cl.n ob.cl.numClusters lb.buf s := by
  obtain ⟨⟨e, o⟩, w1, h1, h2, ⟨hi, -, -, -, lb1, h3, ⟨h4, h5, s1, h6, h7⟩ | ⟨h4, h5, h6⟩⟩ | ⟨h3, h4, -⟩⟩ := getStats_spec hm h
  · rw [hrun] at h1
    cases h1
    dsimp only at h6
    cases h6
    rw [hlb] at h3
    cases h3
    have hn := (isInitialized_iff.1 hi).2.1
    exact computed_extremes hd (hd.order.trans _ _ _ (hd.nonneg 0 0 (by omega) (by omega)) (hd.finite 0 0 (by omega) (by omega))) h7
  · rw [hrun] at h1
    cases h1
    rcases h6 with ⟨h6, -⟩ | ⟨h6, -⟩ <;> cases h6
  · rw [hrun] at h1
    cases h1
    cases h4

/-- C20, sum of distances: if addition is exact and distances are symmetric, the reported sum is the sum of the distances of all pairs of points with the same cluster, each pair once. -/
theorem C20_sum {cfg : Cfg} {spi : Spi F} {dist : Nat → Nat → F} {mayRefuse : Prop} {ob : ClObj} {w : World} (hm : MatrixOk spi ob.cl.n dist mayRefuse) (h : StatsOk cfg ob w)
    (hadd : ExactAdd F) (hs : ∀ p q, p < ob.cl.n → q < ob.cl.n → dist p q = dist q p) {s : Stats F} {w' : World} {lb : Blk Int}
    (hrun : getStats cfg spi (some ob) true w = some ((.ok, some s), w')) (hlb : ob.cl.label = some lb) :
    s.sumDists = sumOf ((pairsWithin cfg lb.buf ob.cl.n).map fun p => dist p.1 p.2) := by
  obtain ⟨⟨e, o⟩, w1, h1, h2, ⟨hi, hk, -, -, lb1, h3, ⟨h4, h5, s1, h6, h7⟩ | ⟨h4, h5, h6⟩⟩ | ⟨h3, h4, -⟩⟩ := getStats_spec hm h
  · rw [hrun] at h1
    cases h1
    dsimp only at h6
    cases h6
    rw [hlb] at h3
    cases h3
    have hkm := (isInitialized_iff.1 hi).2.2.2.1
    have hv := h.labels hk lb hlb
    rw [(computed_statsAre h.config hkm hv h7).1.sumDists]
    exact sum_pairsWithin hadd h.config hs hkm hv
  · rw [hrun] at h1
    cases h1
    rcases h6 with ⟨h6, -⟩ | ⟨h6, -⟩ <;> cases h6
  · rw [hrun] at h1
    cases h1
    cases h4

/-- C20, other calls: an invalid or empty clustering or a data set that does not fit is rejected, and all statistics are zero. -/
theorem C20_rejects {cfg : Cfg} {spi : Spi F} {dist : Nat → Nat → F} {mayRefuse : Prop} {ob : ClObj} {w : World} (hm : MatrixOk spi ob.cl.n dist mayRefuse) (h : StatsOk cfg ob w)
    (hbad : ¬ (ob.cl.isInitialized cfg = true ∧ 0 < ob.cl.numClusters ∧ spi.valid = true ∧ spi.numPoints = ob.cl.n)) :
    ∃ w', getStats cfg spi (some ob) true w = some ((.invalidInput, some nullStats), w') ∧ w'.live = w.live ∧ w'.err.code = .invalidInput := by
  obtain ⟨r, w', h1, h2, ⟨hi, hk, hv, hn, -⟩ | ⟨-, rfl, h3⟩⟩ := getStats_spec hm h
  · exact absurd ⟨hi, hk, hv, hn⟩ hbad
  · exact ⟨w', h1, h2, h3⟩

/-- C20, null pointers. -/
theorem C20_null (cfg : Cfg) (spi : Spi F) (p : Option ClObj) (w : World) :
    (∃ w', getStats cfg spi p false w = some ((.invalidInput, none), w') ∧ w'.live = w.live ∧ w'.err.code = .invalidInput) ∧
    (∃ w', getStats cfg spi none true w = some ((.invalidInput, some nullStats), w') ∧ w'.live = w.live ∧ w'.err.code = .invalidInput) :=
  ⟨⟨_, rfl, rfl, rfl⟩, ⟨_, rfl, rfl, rfl⟩⟩

/-! ### Examples -/

theorem intExact : ExactAdd Int where
  zero_add := Int.zero_add
  assoc := Int.add_assoc
  comm := Int.add_comm

/-- Labels of the six points of `lineData`: the clusters are {0, 2, 3}, {4} and {1, 5}. -/
def statLabels : Buf Int := Buf.ofList [0, 3, 0, 0, 1, 3]

theorem statsOk_sample {l : List Int} (hl : ∀ v, v < 6 → (Buf.ofList l).get v = some sampleCfg.na ∨ ∃ c, c < 4 ∧ (Buf.ofList l).get v = some ((c : Nat) : Int)) :
    StatsOk sampleCfg (hiObj 6 4 (some ⟨6, Buf.ofList l⟩)) (sampleWorld [5, 6]) where
  config := sampleCfg_valid
  live := le_refl ({5, 6} : Multiset Nat)
  labels := by
    intro _ lb h
    cases h
    exact fun v hv => hl v hv
  room := by show 6 * 5 ≤ _ ∧ 6 * 5 < _; decide

theorem lineData_finite : FiniteDists 6 lineData.dist where
  order := intLaws
  num _ _ _ _ := int_isNum _
  nonneg := by
    have : ∀ p, p < 6 → ∀ q, q < 6 → FloatOps.le FloatOps.zero (lineData.dist p q) = true := by decide +kernel
    exact fun p q hp hq => this p hp q hq
  finite := by
    have : ∀ p, p < 6 → ∀ q, q < 6 → FloatOps.le (lineData.dist p q) FloatOps.dblMax = true := by decide +kernel
    exact fun p q hp hq => this p hp q hq
  symm := by
    have : ∀ p, p < 6 → ∀ q, q < 6 → lineData.dist p q = lineData.dist q p := by decide +kernel
    exact fun p q hp hq => this p hp q hq
  zeroNum := int_isNum _
  maxNum := int_isNum _

/-- What a run reports. -/
def statSummary (r : Option ((ErrorCode × Option (Stats Int)) × World)) : Option (ErrorCode × List Nat × List Int) :=
  r.bind fun r => r.1.2.map fun s => (r.1.1, [s.numPoints, s.numAssigned, s.numClusters, s.populated, s.minSize, s.maxSize],
    [s.avgSize, s.sumDists, s.minDist, s.maxDist, s.avgMin, s.avgMax, s.avgWeighted, s.avgUnweighted])

/-- All hypotheses of the theorems hold for a clustering with an empty cluster, a cluster with one point and two larger clusters; and the same with integer arithmetic when nobody is alone. -/
example : MatrixOk (builtinSpi (some lineData)) 6 lineData.dist False ∧ StatsOk sampleCfg (hiObj 6 4 (some ⟨6, statLabels⟩)) (sampleWorld [5, 6]) ∧ FiniteDists 6 lineData.dist ∧ ExactAdd Int ∧
    statSummary (getStats sampleCfg (builtinSpi (some lineData)) (some (hiObj 6 4 (some ⟨6, statLabels⟩))) true (sampleWorld [5, 6])) =
      some (.ok, [6, 6, 4, 3, 1, 3], [2, 14 + 19, 0, 19, 7, 8, 8, 7]) ∧
    statSummary (getStats sampleCfg (builtinSpi (some lineData)) (some (hiObj 6 4 (some ⟨6, Buf.ofList [0, 0, 0, 3, 3, -2147483648]⟩))) true (sampleWorld [5, 6])) =
      some (.ok, [6, 5, 4, 2, 2, 3], [2, 7, 1, 3, 1, 2, 1, 1]) :=
  ⟨builtinMatrix lineData_complete, statsOk_sample (by decide +kernel), lineData_finite, intExact, by decide +kernel, by decide +kernel⟩

end Scc
