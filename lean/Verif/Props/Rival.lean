/-
Property C85: the reported largest distance is within a factor of that of every other acceptable clustering. `Accepted` is in Spec/Rival.lean.
-/
import Verif.Proofs.Rival
import Verif.Props.Double
import Verif.Props.Pipeline

namespace Scc

/-! ### Exact arithmetic -/

theorem ExtremesAre.bound {dist : Nat → Nat → ℝ} {n k : Nat} {b : Buf Int} {s : Stats ℝ} (hE : ExtremesAre dist n k b s) {B : ℝ} (h0 : 0 ≤ B) (h : ∀ i, i < k → ∀ u ∈ members b n i, ∀ v ∈ members b n i, dist u v ≤ B) :
    s.maxDist ≤ B := by
  by_cases hp : ∃ i j, i ≠ j ∧ SameCluster b n k i j
  · obtain ⟨i, j, -, ⟨hi, hj, c, hc, g1, g2⟩, h1⟩ := hE.max_is hp
    exact (of_decide_eq_true h1).trans (h c hc i (List.mem_filter.2 ⟨List.mem_range.2 hi, decide_eq_true g1⟩) j (List.mem_filter.2 ⟨List.mem_range.2 hj, decide_eq_true g2⟩))
  · rw [hE.max_zero hp]
    exact h0

theorem ExtremesAre.max_nonneg {dist : Nat → Nat → ℝ} {n k : Nat} {b : Buf Int} {s : Stats ℝ} (hE : ExtremesAre dist n k b s) (hd : Metric dist) : 0 ≤ s.maxDist := by
  by_cases hp : ∃ i j, i ≠ j ∧ SameCluster b n k i j
  · obtain ⟨i, j, hne, hs⟩ := hp
    exact (hd.nonneg i j).trans (of_decide_eq_true (hE.le_max i j hne hs))
  · rw [hE.max_zero hp]
    exact le_refl (0 : ℝ)

theorem ExtremesAre.same {dist : Nat → Nat → ℝ} {n k : Nat} {b : Buf Int} {s : Stats ℝ} (hE : ExtremesAre dist n k b s) (hd : Metric dist) {u v : Nat} (h : SameCluster b n k u v) : dist u v ≤ s.maxDist := by
  by_cases huv : u = v
  · subst huv
    rw [hd.self]
    exact hE.max_nonneg hd
  · exact of_decide_eq_true (hE.le_max u v huv h)

/-- What a call reported about an object that it returned. -/
theorem extremes_of_success {F : Type} [FloatOps F] {cfg : Cfg} {spi : Spi F} {o : Options F} {ob ob1 : ClObj} {w w' w1 w2 : World} {Q : Nat → Buf Int → Prop} (h : OnSuccess cfg spi o ob w Q)
    (hrun : scClustering cfg spi o (some ob) w = some ((.ok, some ob1), w')) {dist : Nat → Nat → F} {mayRefuse : Prop} (hmat : MatrixOk spi ob.cl.n dist mayRefuse) (hd : FiniteDists ob.cl.n dist) {s : Stats F}
    (hst : StatsOk cfg ob1 w1) (hstat : getStats cfg spi (some ob1) true w1 = some ((.ok, some s), w2)) : ∃ k b, Q k b ∧ ExtremesAre dist ob.cl.n k b s := by
  obtain ⟨e, p, w3, h1, h2⟩ := h
  rw [hrun] at h1
  cases h1
  obtain ⟨-, cl, b, h3, h4, h5, -, -, h6⟩ := h2 rfl
  cases h3
  refine ⟨_, _, h6, ?_⟩
  rw [← h4] at hmat hd ⊢
  exact C20_extremes (ob := ⟨ob.id, cl⟩) hmat hst hd hstat h5

/-- C85. In exact arithmetic, with any exact back end: the largest distance that is reported for a new clustering is at most four times that reported for any other clustering of the same points that the check
accepts for the same options, and that assigns all points if there are no primary points. -/
theorem C85_exact {cfg : Cfg} {spi : Spi ℝ} {dist : Nat → Nat → ℝ} (hd : Metric dist) {within : Nat → Nat → ℝ → Prop} {mayRefuse : Prop} {o : Options ℝ} {ob ob1 : ClObj} (hs : SpiOk spi ob.cl.n (NearestBy dist within) dist mayRefuse)
    (hmat : MatrixOk spi ob.cl.n dist mayRefuse) (hfd : FiniteDists ob.cl.n dist) {P : List Nat} {lab c : Nat → Nat} {w w' w1 w2 : World} (hc : CallOk cfg o ob P lab c w)
    (hm : (∃ m, o.seedMethod = .method m) ∧ (o.primaryMethod = .closestAssigned ∨ o.primaryMethod = .closestSeed → o.seedRadius = .noRadius) ∧ o.secondaryMethod = .ignore ∨ o.seedMethod = .batches ∧ BatchFits o ob.cl.n)
    (hrun : scClustering cfg spi o (some ob) w = some ((.ok, some ob1), w')) {s : Stats ℝ} (hst : StatsOk cfg ob1 w1) (hstat : getStats cfg spi (some ob1) true w1 = some ((.ok, some s), w2))
    {ob2 : ClObj} {s2 : Stats ℝ} (hrival : Accepted cfg spi o P lab c ob.cl.n ob2 s2) : s.maxDist ≤ 4 * s2.maxDist := by
  obtain ⟨lb, -, hcfg, hk, hmeets, hP, hE⟩ := hrival.meets hmat
  have hE2 := hE hfd
  have hf := feasible_of_meets (K := ℝ) hcfg hk hmeets hP (d := dist) (D := s2.maxDist) fun u v h => hE2.same hd h
  have hsucc : OnSuccess cfg spi o ob w fun k b => ∀ i, i < k → ∀ u ∈ members b ob.cl.n i, ∀ v ∈ members b ob.cl.n i, dist u v ≤ 4 • s2.maxDist := by
    rcases hm with ⟨⟨m, hm⟩, hum, hum2⟩ | ⟨hm, hfit⟩
    · exact C11_four_approximation hd hs hc hm hum hum2 hf
    · exact C11_four_approximation_batches hd hs hc hm hfit hf
  obtain ⟨k, b, hQ, hE1⟩ := extremes_of_success hsucc hrun hmat hfd hst hstat
  refine hE1.bound (mul_nonneg (by norm_num) (hE2.max_nonneg hd)) fun i hi u hu v hv => (hQ i hi u hu v hv).trans (le_of_eq ?_)
  rw [nsmul_eq_mul]
  norm_num

/-! The built-in back end in exact arithmetic -/

theorem real_sqd (ds : DataSet ℝ) (i j : Nat) : ds.sqd i j = ∑ t ∈ Finset.range ds.dims, (ds.coord i t - ds.coord j t) ^ 2 := by
  unfold DataSet.sqd
  generalize ds.dims = m
  induction m with
  | zero => rfl
  | succ m ih =>
    rw [List.range_succ, List.foldl_append, ih, Finset.sum_range_succ, pow_two]
    rfl

theorem real_dist_eq (ds : DataSet ℝ) (i j : Nat) :
    ds.dist i j = Dist.dist (WithLp.toLp 2 fun t : Fin ds.dims => ds.coord i t) (WithLp.toLp 2 fun t : Fin ds.dims => ds.coord j t) := by
  rw [EuclideanSpace.dist_eq]
  show Real.sqrt _ = Real.sqrt _
  congr 1
  rw [real_sqd, ← Fin.sum_univ_eq_sum_range (fun t => (ds.coord i t - ds.coord j t) ^ 2)]
  refine Finset.sum_congr rfl fun t _ => ?_
  rw [Real.dist_eq, sq_abs]

theorem real_metric (ds : DataSet ℝ) : Metric ds.dist where
  self x := by rw [real_dist_eq]; exact _root_.dist_self _
  symm x y := by rw [real_dist_eq, real_dist_eq]; exact _root_.dist_comm _ _
  triangle x y z := by rw [real_dist_eq, real_dist_eq, real_dist_eq]; exact _root_.dist_triangle _ _ _

noncomputable def realSpi {ds : DataSet ℝ} (h : ds.Complete) : SpiOk (builtinSpi (some ds)) ds.n (NearestBy ds.dist ds.Within) ds.dist False :=
  builtinSpi_implied realLaws ds h (fun _ _ _ _ => realNum _) fun _ _ _ _ _ _ h => Real.sqrt_le_sqrt (of_decide_eq_true h)

theorem real_finiteDists {ds : DataSet ℝ} (h : ∀ p q, p < ds.n → q < ds.n → ds.dist p q ≤ 2 ^ 1024) : FiniteDists ds.n ds.dist where
  order := realLaws
  num _ _ _ _ := realNum _
  nonneg p q _ _ := decide_eq_true (real_dist_nonneg _ p q)
  finite p q hp hq := decide_eq_true (h p q hp hq)
  symm p q _ _ := (real_metric ds).symm p q
  zeroNum := realNum _
  maxNum := realNum _

/-- C85 in exact arithmetic for a data set with any number of dimensions and the built-in search. Distances are to be no larger than 2^1024, which takes the place of `DBL_MAX`. -/
theorem C85_exact_builtin {cfg : Cfg} {ds : DataSet ℝ} (hcomp : ds.Complete) (hmax : ∀ p q, p < ds.n → q < ds.n → ds.dist p q ≤ 2 ^ 1024) {o : Options ℝ} {ob ob1 : ClObj} (hn : ob.cl.n = ds.n)
    {P : List Nat} {lab c : Nat → Nat} {w w' w1 w2 : World} (hc : CallOk cfg o ob P lab c w)
    (hm : (∃ m, o.seedMethod = .method m) ∧ (o.primaryMethod = .closestAssigned ∨ o.primaryMethod = .closestSeed → o.seedRadius = .noRadius) ∧ o.secondaryMethod = .ignore ∨ o.seedMethod = .batches ∧ BatchFits o ds.n)
    (hrun : scClustering cfg (builtinSpi (some ds)) o (some ob) w = some ((.ok, some ob1), w')) {s : Stats ℝ} (hst : StatsOk cfg ob1 w1)
    (hstat : getStats cfg (builtinSpi (some ds)) (some ob1) true w1 = some ((.ok, some s), w2)) {ob2 : ClObj} {s2 : Stats ℝ} (hrival : Accepted cfg (builtinSpi (some ds)) o P lab c ds.n ob2 s2) :
    s.maxDist ≤ 4 * s2.maxDist := by
  rw [← hn] at hm hrival
  exact C85_exact (real_metric ds) (by rw [hn]; exact realSpi hcomp) (by rw [hn]; exact builtinMatrix hcomp) (by rw [hn]; exact real_finiteDists hmax) hc hm hrun hst hstat hrival

/-! ### Double -/

theorem DataSet.Moderate.finiteDists {ds : DataSet Dbl} (hm : ds.Moderate) : FiniteDists ds.n ds.dist := by
  refine hm.finite.finiteDists fun p q hp hq => ?_
  obtain ⟨x, h1, -, h2, -⟩ := dist_error hm hp hq
  rw [h1]
  exact Dbl.le_fin.2 h2

theorem Dbl.between {x z : ℝ} {a : Dbl} (h1 : FloatOps.le (Dbl.fin x) a = true) (h2 : FloatOps.le a (Dbl.fin z) = true) : ∃ y, a = .fin y ∧ x ≤ y ∧ y ≤ z := by
  cases a with
  | nan => exact absurd h2 (by show ¬ (Dbl.le .nan (.fin z) = true); simp [Dbl.le])
  | fin y => exact ⟨y, rfl, Dbl.le_fin.1 h1, Dbl.le_fin.1 h2⟩
  | inf t =>
    cases t with
    | true => exact absurd h1 (by show ¬ (Dbl.le (.fin x) (.inf true) = true); simp [Dbl.le, Dbl.ext])
    | false => exact absurd h2 (by show ¬ (Dbl.le (.inf false) (.fin z) = true); simp [Dbl.le, Dbl.ext])

/-- The largest distance reported is that of a pair of points, up to rounding. -/
theorem ExtremesAre.near {ds : DataSet Dbl} (hm : ds.Moderate) {k : Nat} {b : Buf Int} {s : Stats Dbl} (hE : ExtremesAre ds.dist ds.n k b s) : ∃ y, s.maxDist = .fin y ∧ 0 ≤ y ∧ (∀ u v, SameCluster b ds.n k u v → ds.eudist u v ≤ nearFactor * y) ∧
    ∀ B, 0 ≤ B → (∀ i, i < k → ∀ u ∈ members b ds.n i, ∀ v ∈ members b ds.n i, ds.eudist u v ≤ B) → y ≤ nearFactor * B := by
  have hn0 : 0 ≤ nearFactor := le_trans (by norm_num) nearFactor_one
  by_cases hp : ∃ i j, i ≠ j ∧ SameCluster b ds.n k i j
  · obtain ⟨i, j, hne, hsame, h1⟩ := hE.max_is hp
    have h2 := hE.le_max i j hne hsame
    obtain ⟨hi, hj, c, hc, g1, g2⟩ := hsame
    obtain ⟨x, e, hx0, hx1, hx2⟩ := dist_near hm hi hj
    rw [e] at h1 h2
    obtain ⟨y, hy, hy1, hy2⟩ := Dbl.between h2 h1
    have hy0 := hx0.trans hy1
    refine ⟨y, hy, hy0, fun u v h => ?_, fun B _ hB => ?_⟩
    · by_cases huv : u = v
      · subst huv
        rw [(eudist_metric ds).self]
        exact mul_nonneg hn0 hy0
      · have h3 := hE.le_max u v huv h
        obtain ⟨x', e', -, -, hx3⟩ := dist_near hm h.1 h.2.1
        rw [e', hy] at h3
        exact hx3.trans (mul_le_mul_of_nonneg_left (Dbl.le_fin.1 h3) hn0)
    · exact hy2.trans (hx1.trans (mul_le_mul_of_nonneg_left (hB c hc i (List.mem_filter.2 ⟨List.mem_range.2 hi, decide_eq_true g1⟩) j (List.mem_filter.2 ⟨List.mem_range.2 hj, decide_eq_true g2⟩)) hn0))
  · refine ⟨0, hE.max_zero hp, le_refl _, fun u v h => ?_, fun B h0 _ => mul_nonneg hn0 h0⟩
    by_cases huv : u = v
    · subst huv
      rw [(eudist_metric ds).self, mul_zero]
    · exact absurd ⟨u, v, huv, h⟩ hp

/-- C85 for data sets of `double` values: the same with the factor 4 (1 + 2^-31)^4. -/
theorem C85_double {cfg : Cfg} {ds : DataSet Dbl} (hmod : ds.Moderate) {o : Options Dbl} {ob ob1 : ClObj} (hn : ob.cl.n = ds.n) {P : List Nat} {lab c : Nat → Nat} {w w' w1 w2 : World} (hc : CallOk cfg o ob P lab c w)
    (hm : (∃ m, o.seedMethod = .method m) ∧ (o.primaryMethod = .closestAssigned ∨ o.primaryMethod = .closestSeed → o.seedRadius = .noRadius) ∧ o.secondaryMethod = .ignore ∨ o.seedMethod = .batches ∧ BatchFits o ds.n)
    (hrun : scClustering cfg (builtinSpi (some ds)) o (some ob) w = some ((.ok, some ob1), w')) {s : Stats Dbl} (hst : StatsOk cfg ob1 w1)
    (hstat : getStats cfg (builtinSpi (some ds)) (some ob1) true w1 = some ((.ok, some s), w2)) {ob2 : ClObj} {s2 : Stats Dbl} (hrival : Accepted cfg (builtinSpi (some ds)) o P lab c ds.n ob2 s2) :
    ∃ x y, s.maxDist = .fin x ∧ s2.maxDist = .fin y ∧ x ≤ 4 * (1 + 2 ^ (-31 : ℤ)) ^ 4 * y := by
  have hmat := builtinMatrix hmod.finite.complete
  obtain ⟨lb, -, hcfg, hk, hmeets, hP, hE⟩ := hrival.meets hmat
  obtain ⟨y, hy, hy0, hsame, -⟩ := (hE hmod.finiteDists).near hmod
  have hf := feasible_of_meets (K := ℝ) hcfg hk hmeets hP hsame
  have hnf : nearFactor = 1 + 2 ^ (-31 : ℤ) := rfl
  have hn1 := nearFactor_one
  have hn0 : 0 ≤ nearFactor := le_trans (by norm_num) hn1
  have hny : 0 ≤ nearFactor * y := mul_nonneg hn0 hy0
  have hsucc : OnSuccess cfg (builtinSpi (some ds)) o ob w fun k b => ∀ i, i < k → ∀ u ∈ members b ds.n i, ∀ v ∈ members b ds.n i, ds.eudist u v ≤ 4 * nearFactor ^ 2 * (nearFactor * y) := by
    rcases hm with ⟨⟨m, hm⟩, hum, hum2⟩ | ⟨hm, hfit⟩
    · exact C76_four_approximation hmod hn hc hm hum hum2 hf
    · refine (C76_four_approximation_batches hmod hn hc hm hfit hf).mono fun k b h i hi u hu v hv => (h i hi u hu v hv).trans ?_
      rw [← hnf]
      refine mul_le_mul_of_nonneg_right (mul_le_mul_of_nonneg_left ?_ (by norm_num)) hny
      calc nearFactor = nearFactor * 1 := (mul_one _).symm
        _ ≤ nearFactor * nearFactor := mul_le_mul_of_nonneg_left hn1 hn0
        _ = nearFactor ^ 2 := by ring
  obtain ⟨k, b, hQ, hE1⟩ := extremes_of_success hsucc hrun (by rw [hn]; exact hmat) (by rw [hn]; exact hmod.finiteDists) hst hstat
  rw [hn] at hE1
  obtain ⟨x, hx, -, -, hx2⟩ := hE1.near hmod
  refine ⟨x, y, hx, hy, (hx2 _ (mul_nonneg (mul_nonneg (by norm_num) (pow_nonneg hn0 2)) hny) hQ).trans (le_of_eq ?_)⟩
  rw [← hnf]
  ring

/-! ### Examples -/

section

variable {F : Type} [FloatOps F]

def rivalOpts : Options F := { (defaultOptions : Options F) with sizeConstraint := 2, primaryMethod := .closestSeed, primaryRadius := .noRadius }

theorem rival_valid : ValidOptions (rivalOpts : Options F) 6 (List.range 6) where
  version := rfl
  size_two := le_refl 2
  size_le := by show 2 ≤ 6; decide
  types := Or.inl ⟨by show 0 < 2; decide, rfl, rfl, rfl⟩
  seed := nofun
  primary := Or.inl ⟨rfl, rfl⟩
  primaryMethod := nofun
  secondaryMethod := Or.inl rfl
  seedRadius := ⟨Or.inl rfl, nofun, nofun⟩
  primaryRadius := ⟨nofun, nofun⟩
  secondaryRadius := ⟨nofun, nofun⟩
  batches := nofun

theorem rival_callOk : CallOk sampleCfg (rivalOpts : Options F) lineObj (List.range 6) (fun _ => 0) (fun _ => 0) (sampleWorld [5]) where
  config := sampleCfg_valid
  live := by simp [lineObj, sampleWorld, ptrOwn, ptrIds]
  room := by intro lb h; cases h
  arrays := ⟨fun _ => rfl, fun b h => (by cases h), fun x hx => List.mem_range.1 hx, fun b h => absurd h (by show ¬ 2 ≤ 0; decide), fun b h => absurd h (by show ¬ 2 ≤ 0; decide)⟩
  limits := fun _ => ⟨by show 6 * 2 ≤ 2 ^ 64 - 1; decide, fun h => absurd h (by show ¬ 2 ≤ 0; decide)⟩
  unchecked := fun _ => rfl

/-- The clustering {0, 1, 2}, {3, 4, 5} of six points. -/
def rivalObj : ClObj := hiObj 6 2 (some ⟨6, Buf.ofList [0, 0, 0, 1, 1, 1]⟩)

/-- It is accepted. -/
theorem rival_accepted {ds : DataSet F} (hds : ds.Complete) (hinit : ds.isInitialized = true) (hn : ds.n = 6) :
    ∃ s2, Accepted sampleCfg (builtinSpi (some ds)) rivalOpts (List.range 6) (fun _ => 0) (fun _ => 0) 6 rivalObj s2 := by
  have hnf : (sampleWorld [5, 6]).NoFail := fun _ _ => rfl
  have hval : ValidLabels sampleCfg (Buf.ofList [0, 0, 0, 1, 1, 1]) 6 2 := by unfold ValidLabels Unassigned; decide +kernel
  have hck : CheckOk sampleCfg (rivalOpts : Options F) rivalObj (List.range 6) (fun _ => 0) (fun _ => 0) (sampleWorld [5, 6]) := by
    refine ⟨sampleCfg_valid, le_refl ({5, 6} : Multiset Nat), fun _ lb h v hv => ?_, rival_callOk.arrays, fun h => absurd h (by show ¬ 2 ≤ 0; decide)⟩
    cases h
    rcases hval v hv with h | ⟨c, -, h⟩ <;> exact ⟨_, h⟩
  have hst : StatsOk sampleCfg rivalObj (sampleWorld [5, 6]) := by
    refine ⟨sampleCfg_valid, le_refl ({5, 6} : Multiset Nat), fun _ lb h => ?_, by decide, by decide⟩
    cases h
    exact hval
  obtain ⟨e, ok, w1, lb, h1, h2, -, h3⟩ := C18_check_exact hck (by decide +kernel) (by decide) rival_valid
  obtain ⟨e2, s2, w2, lb2, g1, g2, -, g3⟩ := C20_stats (ob := rivalObj) (by rw [← show ds.n = rivalObj.cl.n from hn]; exact builtinMatrix hds) hst (by decide +kernel) (by decide) hinit hn
  cases h2
  cases g2
  rcases h3 with ⟨rfl, h3⟩ | ⟨-, -, h3⟩
  · rw [h3.2 ⟨hval, fun h => absurd rfl h, by
      show ∀ i, i < 2 → 2 ≤ _
      decide +kernel, fun h => absurd h (by show ¬ 2 ≤ 0; decide)⟩] at h1
    rcases g3 with ⟨rfl, -, g3, -⟩ | ⟨-, -, ⟨-, g3⟩ | ⟨-, g3 | g3⟩⟩
    · refine ⟨s2, rfl, ⟨_, _, hck, h1⟩, ⟨_, _, hst, g1⟩, fun _ => ?_⟩
      rw [g3.assigned, g3.points]
      show ((List.range 6).filter fun v => decide ((Buf.ofList [(0 : Int), 0, 0, 1, 1, 1]).get v ≠ some sampleCfg.na)).length = 6
      decide +kernel
    · exact absurd hnf g3
    · exact absurd hnf g3
    · exact g3.elim
  · exact absurd hnf h3

/-- The call succeeds and the statistics are reported. -/
theorem rival_run {ds : DataSet F} (hds : ds.Complete) (hinit : ds.isInitialized = true) (hn : ds.n = 6) {le : Nat → Nat → Nat → Prop} {within : Nat → Nat → F → Prop} (hs : SpiOk (builtinSpi (some ds)) 6 (Nearest le within) ds.dist False) :
    ∃ ob1 w' s w2, scClustering sampleCfg (builtinSpi (some ds)) rivalOpts (some lineObj) (sampleWorld [5]) = some ((.ok, some ob1), w') ∧ StatsOk sampleCfg ob1 w' ∧
      getStats sampleCfg (builtinSpi (some ds)) (some ob1) true w' = some ((.ok, some s), w2) := by
  have hc : CallOk sampleCfg (rivalOpts : Options F) lineObj (List.range 6) (fun _ => 0) (fun _ => 0) (sampleWorld [5]) := rival_callOk
  have hnf : (sampleWorld [5]).NoFail := fun _ _ => rfl
  obtain ⟨p, w', h1⟩ := C42_solution hs hc (m := .lexical) rfl (by show 0 < 2; decide) ⟨by decide +kernel, hinit, hn, rival_valid, rfl⟩ hnf
    (by show ¬ TooBig sampleCfg 6 2 .lexical; unfold TooBig; decide) ⟨(by rintro ⟨-, h⟩; cases h), (by rintro ⟨h, -⟩; exact h rfl)⟩ nofun
  obtain ⟨e, p', w1, h2, h3⟩ := C52_stats hs hc (Or.inl ⟨_, rfl⟩) (by rw [← show ds.n = lineObj.cl.n from hn]; exact builtinMatrix hds) (by decide)
  rw [h1] at h2
  cases h2
  obtain ⟨cl, b, rfl, h4, e2, s, w2, h5, h6⟩ := h3 rfl
  obtain ⟨e3, p3, w3, h7, h8⟩ := C01_size_constraint hs hc (m := .lexical) rfl
  rw [h1] at h7
  cases h7
  obtain ⟨-, cl', b', h9, h10, h11, h12, -, -, h13, -⟩ := h8 rfl
  cases h9
  rw [h4] at h11
  cases h11
  have hst : StatsOk sampleCfg ⟨lineObj.id, cl⟩ w' := by
    refine ⟨sampleCfg_valid, by rw [h4]; exact h12, fun _ lb h => ?_, by rw [h10]; decide⟩
    dsimp only at h
    rw [h4] at h
    cases h
    rw [h10]
    exact h13
  rcases h6 with ⟨rfl, -⟩ | ⟨-, h6⟩ | ⟨-, h6 | h6⟩
  · exact ⟨_, _, s, w2, h1, hst, h5⟩
  · exact absurd hnf h6
  · exact absurd hnf h6
  · exact h6.elim

end

theorem realLine_le (p q : Nat) (hp : p < 6) (hq : q < 6) : (realLine 1 0).dist p q ≤ 2 ^ 1024 := of_decide_eq_true (realLine_finite.finite p q hp hq)

/-- The hypotheses of C85 in exact arithmetic: the call succeeds, the statistics are reported, and there is another clustering that is accepted. -/
example : ∃ ob1 w' s w2 s2, scClustering sampleCfg (builtinSpi (some (realLine 1 0))) rivalOpts (some lineObj) (sampleWorld [5]) = some ((.ok, some ob1), w') ∧
    getStats sampleCfg (builtinSpi (some (realLine 1 0))) (some ob1) true w' = some ((.ok, some s), w2) ∧
    Accepted sampleCfg (builtinSpi (some (realLine 1 0))) rivalOpts (List.range 6) (fun _ => 0) (fun _ => 0) 6 rivalObj s2 ∧ s.maxDist ≤ 4 * s2.maxDist := by
  have hex := realLine_exact 1 0
  obtain ⟨ob1, w', s, w2, h1, h2, h3⟩ := rival_run hex.complete hex.init rfl (realSpi hex.complete)
  obtain ⟨s2, hr⟩ := rival_accepted hex.complete hex.init rfl
  exact ⟨ob1, w', s, w2, s2, h1, h3, hr, C85_exact_builtin hex.complete realLine_le rfl rival_callOk (Or.inl ⟨⟨_, rfl⟩, fun _ => rfl, rfl⟩) h1 h2 h3 hr⟩

/-- The hypotheses of C85 in double. -/
example : ∃ ob1 w' s w2 s2, scClustering sampleCfg (builtinSpi (some lineDbl)) rivalOpts (some lineObj) (sampleWorld [5]) = some ((.ok, some ob1), w') ∧
    getStats sampleCfg (builtinSpi (some lineDbl)) (some ob1) true w' = some ((.ok, some s), w2) ∧
    Accepted sampleCfg (builtinSpi (some lineDbl)) rivalOpts (List.range 6) (fun _ => 0) (fun _ => 0) 6 rivalObj s2 ∧
    ∃ x y, s.maxDist = .fin x ∧ s2.maxDist = .fin y ∧ x ≤ 4 * (1 + 2 ^ (-31 : ℤ)) ^ 4 * y := by
  obtain ⟨ob1, w', s, w2, h1, h2, h3⟩ := rival_run lineDbl_finite.complete rfl rfl (doubleSpi lineDbl_moderate)
  obtain ⟨s2, hr⟩ := rival_accepted lineDbl_finite.complete rfl rfl
  exact ⟨ob1, w', s, w2, s2, h1, h3, hr, C85_double lineDbl_moderate rfl rival_callOk (Or.inl ⟨⟨_, rfl⟩, fun _ => rfl, rfl⟩) h1 h2 h3 hr⟩

end Scc
