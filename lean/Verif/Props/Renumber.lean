/-
Property C80: the numbering of points and clusters does not matter for what is possible, for checks and for statistics (src/nng_clustering.c, src/nng_batch_clustering.c, src/utilities.c).
-/
import Verif.Proofs.Renumber
import Verif.Props.Check
import Verif.Props.Relax
import Verif.Props.Stats

set_option linter.unusedVariables false

namespace Scc

variable {F : Type} [FloatOps F]

/-- C80, checks. The points, the clusters, the primary points and the types are numbered differently in two calls of the check: if both answer, they answer the same. The label arrays may hold arbitrary values; a
label that is not the number of a cluster is kept. -/
theorem C80_check {cfg : Cfg} {o o' : Options F} {ob ob' : ClObj} {P P' : List Nat} {lab c lab' c' : Nat → Nat} {w w' : World} (hc : CheckOk cfg o ob P lab c w) (hc' : CheckOk cfg o' ob' P' lab' c' w')
    {σ τ : Nat → Nat} (hσ : Renumbering ob.cl.n σ) (hτ : Renumbering ob.cl.numClusters τ) (hn : ob'.cl.n = ob.cl.n) (hk : ob'.cl.numClusters = ob.cl.numClusters)
    (hcon : SameConstraints ob.cl.n σ o P lab c o' P' lab' c') {lb lb' : Blk Int} (hlb : ob.cl.label = some lb) (hlb' : ob'.cl.label = some lb')
    (hl : RenumberedLabels ob.cl.n ob.cl.numClusters σ τ lb.buf lb'.buf) {r r' : Option Bool} {w1 w1' : World}
    (hrun : checkClustering cfg (some ob) o true w = some ((.ok, r), w1)) (hrun' : checkClustering cfg (some ob') o' true w' = some ((.ok, r'), w1')) : r = r' := by
  obtain ⟨⟨e, _⟩, _, h1, -, ⟨h2, -, hi, -, -, lb1, a, h3, h4, h5⟩ | ⟨h2, h3, h4⟩⟩ := checkClustering_spec hc
  swap
  · rw [hrun] at h1
    cases h1
    exact absurd rfl h2.ne_ok
  rw [hrun] at h1
  cases h1
  obtain ⟨⟨e', _⟩, _, h1', -, ⟨h2', -, hi', -, -, lb1', a', h3', h4', h5'⟩ | ⟨h2', h3', h4'⟩⟩ := checkClustering_spec hc'
  swap
  · rw [hrun'] at h1'
    cases h1'
    exact absurd rfl h2'.ne_ok
  rw [hrun'] at h1'
  cases h1'
  dsimp only at h4 h4'
  subst h4 h4'
  rw [hlb] at h3
  cases h3
  rw [hlb'] at h3'
  cases h3'
  rw [hn, hk] at h5'
  have hr' := hc'.arrays.range
  rw [hn] at hr'
  have := hl.meets_iff hc.config (isInitialized_iff.1 hi).2.2.2.1 hσ hτ hcon hc.arrays.range hr'
  rw [← h5, ← h5'] at this
  rw [Option.some.injEq, Bool.eq_iff_iff]
  exact this.symm

/-- C80, statistics. When numbers are added without rounding, all statistics are the same for both numberings. The distances are those of the same points; the two calls may use different back ends. -/
theorem C80_stats {cfg : Cfg} {spi spi' : Spi F} {dist dist' : Nat → Nat → F} {mayRefuse mayRefuse' : Prop} {ob ob' : ClObj} {w w' : World} (hm : MatrixOk spi ob.cl.n dist mayRefuse)
    (hm' : MatrixOk spi' ob'.cl.n dist' mayRefuse') (h : StatsOk cfg ob w) (h' : StatsOk cfg ob' w') (hadd : ExactAdd F)
    (hanti : ∀ a b : F, FloatOps.le a b = true → FloatOps.le b a = true → a = b) {σ τ : Nat → Nat} (hσ : Renumbering ob.cl.n σ) (hτ : Renumbering ob.cl.numClusters τ) (hn : ob'.cl.n = ob.cl.n)
    (hk : ob'.cl.numClusters = ob.cl.numClusters) (hfin : FiniteDists ob.cl.n dist) (hfin' : FiniteDists ob'.cl.n dist') (hd : ∀ p q, p < ob.cl.n → q < ob.cl.n → dist' (σ p) (σ q) = dist p q)
    {lb lb' : Blk Int} (hlb : ob.cl.label = some lb) (hlb' : ob'.cl.label = some lb') (hl : RenumberedLabels ob.cl.n ob.cl.numClusters σ τ lb.buf lb'.buf) {s s' : Option (Stats F)} {w1 w1' : World}
    (hrun : getStats cfg spi (some ob) true w = some ((.ok, s), w1)) (hrun' : getStats cfg spi' (some ob') true w' = some ((.ok, s'), w1')) : s = s' := by
  have main : ∀ {spi : Spi F} {dist : Nat → Nat → F} {mayRefuse : Prop} {ob : ClObj} {w : World}, MatrixOk spi ob.cl.n dist mayRefuse → StatsOk cfg ob w → FiniteDists ob.cl.n dist →
      ∀ {lb : Blk Int}, ob.cl.label = some lb → ∀ {s : Option (Stats F)} {w1 : World}, getStats cfg spi (some ob) true w = some ((.ok, s), w1) →
      ob.cl.numClusters ≤ cfg.clabelMax ∧ ∃ t, s = some t ∧ StatsAre cfg dist ob.cl.n ob.cl.numClusters lb.buf t ∧
        (clustersFrom lb.buf ob.cl.n ob.cl.numClusters 1 = [] → t = UnpopulatedStats ob.cl.n ob.cl.numClusters) ∧ ExtremesAre dist ob.cl.n ob.cl.numClusters lb.buf t := by
    intro spi dist mayRefuse ob w hm h hfin lb hlb s w1 hrun
    obtain ⟨⟨e, _⟩, _, h1, -, ⟨hi, hk, hv, hn, -⟩ | ⟨-, h3, -⟩⟩ := getStats_spec hm h
    · obtain ⟨e, t, w2, lb2, g1, g2, -, ⟨g3, -, g4, g5⟩ | ⟨-, -, g3⟩⟩ := C20_stats hm h hi hk hv hn
      · rw [hrun] at g1
        cases g1
        rw [hlb] at g2
        cases g2
        exact ⟨(isInitialized_iff.1 hi).2.2.2.1, t, rfl, g4, g5, C20_extremes hm h hfin hrun hlb⟩
      · rw [hrun] at g1
        cases g1
        rcases g3 with ⟨g3, -⟩ | ⟨g3, -⟩ <;> cases g3
    · rw [hrun] at h1
      cases h1
      cases h3
  obtain ⟨k1, t, rfl, t1, t2, t3⟩ := main hm h hfin hlb hrun
  obtain ⟨-, t', rfl, t1', t2', t3'⟩ := main hm' h' hfin' hlb' hrun'
  rw [hn, hk] at t1' t2' t3'
  exact congrArg some (hl.stats h.config k1 hadd hanti hσ hτ hfin hd t1 t1' t3 t3' t2 t2').symm

/-- C80, what is possible. When a call succeeds for one numbering, a call for another numbering succeeds too, if it is accepted, supported and nothing fails. The calls may use different methods to find seeds
and to assign the remaining points. -/
theorem C80_success {cfg : Cfg} {spi spi' : Spi F} {le le' : Nat → Nat → Nat → Prop} {within within' : Nat → Nat → F → Prop} {dist dist' : Nat → Nat → F} {mayRefuse : Prop} {o o' : Options F} {ob ob' : ClObj}
    (hs : SpiOk spi ob.cl.n (Nearest le within) dist mayRefuse) (hs' : SpiOk spi' ob'.cl.n (Nearest le' within') dist' False) {P P' : List Nat} {lab c lab' c' : Nat → Nat} {w w' : World}
    (hc : CallOk cfg o ob P lab c w) (hc' : CallOk cfg o' ob' P' lab' c' w') (hn : ob'.cl.n = ob.cl.n) {σ : Nat → Nat} (hσ : Renumbering ob.cl.n σ)
    (hcon : SameConstraints ob.cl.n σ o P lab c o' P' lab' c') (hr : o.seedRadius = o'.seedRadius) (hw : ∀ v x, v < ob.cl.n → x < ob.cl.n → within v x o.seedSupplied → within' (σ v) (σ x) o'.seedSupplied)
    (hself : 2 ≤ o.numTypes → o.seedRadius = .useSupplied → ∀ v, v < ob.cl.n → within v v o.seedSupplied) (hfit : o.seedMethod = .batches → BatchFits o ob.cl.n)
    (hacc' : Accepts cfg spi'.valid spi'.numPoints o' ob'.cl P') (hw' : w'.NoFail) (hsup' : Supported cfg ob'.cl.n o' c')
    (hok : ∃ p w1, scClustering cfg spi o (some ob) w = some ((.ok, p), w1)) : ∃ p w1, scClustering cfg spi' o' (some ob') w' = some ((.ok, p), w1) := by
  refine ok_of_solvable hs' hc' hacc' hw' hsup' ?_
  rw [hn]
  exact (solvable_of_ok hs hc hself hfit hok).1.renumber hσ hcon hc.arrays.range hr hw

theorem SameData.sqd {σ : Nat → Nat} {ds ds' : DataSet F} (h : SameData σ ds ds') {i j : Nat} (hi : i < ds.n) (hj : j < ds.n) : ds'.sqd (σ i) (σ j) = ds.sqd i j := by
  unfold DataSet.sqd
  rw [h.dims]
  refine List.foldl_ext _ _ _ fun acc t ht => ?_
  rw [h.coord i t hi (List.mem_range.1 ht), h.coord j t hj (List.mem_range.1 ht)]

/-- C80, what is possible, for the built-in distances of two data sets that contain the same points in different order. -/
theorem C80_success_builtin {cfg : Cfg} (laws : FloatLaws F) {ds ds' : DataSet F} (hcd : ds.Complete) (hcd' : ds'.Complete) (hnum : ∀ i j, i < ds.n → j < ds.n → IsNum (ds.sqd i j)) {σ : Nat → Nat}
    (hσ : Renumbering ds.n σ) (hds : SameData σ ds ds') {o o' : Options F} {ob ob' : ClObj} {P P' : List Nat} {lab c lab' c' : Nat → Nat} {w w' : World} (hc : CallOk cfg o ob P lab c w)
    (hc' : CallOk cfg o' ob' P' lab' c' w') (hn : ob.cl.n = ds.n) (hn' : ob'.cl.n = ds.n) (hcon : SameConstraints ds.n σ o P lab c o' P' lab' c') (hr : o.seedRadius = o'.seedRadius)
    (hsr : o.seedSupplied = o'.seedSupplied) (hself : 2 ≤ o.numTypes → o.seedRadius = .useSupplied → ∀ v, v < ds.n → ds.Within v v o.seedSupplied) (hfit : o.seedMethod = .batches → BatchFits o ds.n)
    (hacc' : Accepts cfg (builtinSpi (some ds')).valid (builtinSpi (some ds')).numPoints o' ob'.cl P') (hw' : w'.NoFail) (hsup' : Supported cfg ds.n o' c')
    (hok : ∃ p w1, scClustering cfg (builtinSpi (some ds)) o (some ob) w = some ((.ok, p), w1)) : ∃ p w1, scClustering cfg (builtinSpi (some ds')) o' (some ob') w' = some ((.ok, p), w1) := by
  have hnum' : ∀ i j, i < ds'.n → j < ds'.n → IsNum (ds'.sqd i j) := by
    intro x y hx hy
    rw [hds.num] at hx hy
    obtain ⟨i, hi, rfl⟩ := hσ.surj hx
    obtain ⟨j, hj, rfl⟩ := hσ.surj hy
    rw [hds.sqd hi hj]
    exact hnum i j hi hj
  have s1 := builtinSpi_nearest laws ds hcd hnum
  have s2 := builtinSpi_nearest laws ds' hcd' hnum'
  rw [← hn] at s1
  rw [hds.num, ← hn'] at s2
  refine C80_success s1 s2 hc hc' (by rw [hn, hn']) (σ := σ) (by rw [hn]; exact hσ) (by rw [hn]; exact hcon) hr ?_ (by rw [hn]; exact hself) (by rw [hn]; exact hfit) hacc' hw' (by rw [hn']; exact hsup') hok
  intro v x hv hx h
  rw [hn] at hv hx
  unfold DataSet.Within at h ⊢
  rw [hds.sqd hv hx, ← hsr]
  exact h

/-! ### Examples -/

theorem reverse_renumbering : Renumbering 6 (fun v => 5 - v) := ⟨fun v hv => by omega, fun u v hu hv h => by omega⟩

theorem swap_renumbering : Renumbering 2 (fun c => 1 - c) := ⟨fun v hv => by omega, fun u v hu hv h => by omega⟩

/-- The options of `checkOpts` for the points in reverse order. -/
def checkOptsRev : Options Int :=
  { (defaultOptions : Options Int) with
    sizeConstraint := 2, numTypes := 2, typeConstraints := some (Buf.ofList [1, 1]), lenTypeLabels := 6, typeLabels := some (Buf.ofList [1, 0, 1, 0, 1, 0])
    lenPrimary := 3, primary := some (Buf.ofList [2, 3, 5]) }

theorem checkOptsRev_arrays : OptionArrays 6 checkOptsRev [2, 3, 5] (fun v => (5 - v) % 2) (fun _ => 1) where
  all := nofun
  primary := by
    intro b h
    cases h
    refine ⟨rfl, fun i x h => ?_⟩
    rw [Buf.get_ofList]; exact h
  range := by decide
  labels := by
    intro b _ h v hv
    cases h
    revert v
    decide
  constraints := by
    intro b _ h t ht
    cases h
    revert t
    decide

theorem checkOpts_same : SameConstraints 6 (fun v => 5 - v) checkOpts [0, 2, 3] (fun v => v % 2) (fun _ => 1) checkOptsRev [2, 3, 5] (fun v => (5 - v) % 2) (fun _ => 1) :=
  ⟨rfl, by constructor <;> nofun, by decide, rfl, by decide, fun _ _ => rfl⟩

/-- Six points in two clusters, one of them unassigned; the other clustering has the points in reverse order and the clusters exchanged. -/
example : checkClustering sampleCfg (some (labelObj 2 [0, 0, 1, 1, sampleCfg.na, 0])) checkOpts true (sampleWorld [5, 6]) ≠ none ∧
    ∀ r r' w1 w1', checkClustering sampleCfg (some (labelObj 2 [0, 0, 1, 1, sampleCfg.na, 0])) checkOpts true (sampleWorld [5, 6]) = some ((.ok, r), w1) →
      checkClustering sampleCfg (some (labelObj 2 [1, sampleCfg.na, 0, 0, 1, 1])) checkOptsRev true (sampleWorld [5, 6]) = some ((.ok, r'), w1') → r = r' := by
  refine ⟨by decide, fun r r' w1 w1' h h' => C80_check (ob := labelObj 2 [0, 0, 1, 1, sampleCfg.na, 0]) (ob' := labelObj 2 [1, sampleCfg.na, 0, 0, 1, 1]) ⟨sampleCfg_valid, le_of_eq (by rfl), ?_, checkOpts_arrays, fun _ => by show 2 * 2 ≤ 2 ^ 64 - 1; decide⟩
    ⟨sampleCfg_valid, le_of_eq (by rfl), ?_, checkOptsRev_arrays, fun _ => by show 2 * 2 ≤ 2 ^ 64 - 1; decide⟩ reverse_renumbering swap_renumbering rfl rfl checkOpts_same rfl rfl
    (by show ∀ v, v < 6 → _; decide) h h'⟩
  all_goals
    intro _ lb h v hv
    cases h
    rw [Buf.get_ofList]
    exact ⟨_, List.getElem?_eq_getElem hv⟩

/-- Both answers are "true". -/
example : ((checkClustering sampleCfg (some (labelObj 2 [0, 0, 1, 1, sampleCfg.na, 0])) checkOpts true (sampleWorld [5, 6])).map (·.1)) = some (.ok, some true) ∧
    ((checkClustering sampleCfg (some (labelObj 2 [1, sampleCfg.na, 0, 0, 1, 1])) checkOptsRev true (sampleWorld [5, 6])).map (·.1)) = some (.ok, some true) := by decide

/-- The points of `lineData` in reverse order. -/
def lineRev : DataSet Int := mkData 1 [20, 8, 7, 3, 1, 0]

theorem lineRev_complete : lineRev.Complete := mkData_complete (by decide)

theorem lineRev_same : SameData (fun v => 5 - v) lineData lineRev where
  num := rfl
  dims := rfl
  coord := by
    have : ∀ i, i < 6 → ∀ t, t < 1 → lineRev.coord (5 - i) t = lineData.coord i t := by decide
    exact fun i t hi ht => this i hi t ht

theorem lineRev_dist : ∀ p q, p < 6 → q < 6 → lineRev.dist (5 - p) (5 - q) = lineData.dist p q := by
  intro p q hp hq
  unfold DataSet.dist
  rw [lineRev_same.sqd hp hq]

theorem lineRev_finite : FiniteDists 6 lineRev.dist where
  order := intLaws
  num _ _ _ _ := int_isNum _
  nonneg := by
    have : ∀ p, p < 6 → ∀ q, q < 6 → FloatOps.le FloatOps.zero (lineRev.dist p q) = true := by decide +kernel
    exact fun p q hp hq => this p hp q hq
  finite := by
    have : ∀ p, p < 6 → ∀ q, q < 6 → FloatOps.le (lineRev.dist p q) FloatOps.dblMax = true := by decide +kernel
    exact fun p q hp hq => this p hp q hq
  symm := by
    have : ∀ p, p < 6 → ∀ q, q < 6 → lineRev.dist p q = lineRev.dist q p := by decide +kernel
    exact fun p q hp hq => this p hp q hq
  zeroNum := int_isNum _
  maxNum := int_isNum _

theorem rotate_renumbering : Renumbering 4 (fun c => (c + 1) % 4) := ⟨fun v hv => by omega, fun u v hu hv h => by omega⟩

/-- The clusters {0, 2, 3}, {4}, {1, 5} and an empty one, with the points in reverse order and the clusters renumbered. -/
example : ∀ s s' w1 w1', getStats sampleCfg (builtinSpi (some lineData)) (some (hiObj 6 4 (some ⟨6, statLabels⟩))) true (sampleWorld [5, 6]) = some ((.ok, s), w1) →
    getStats sampleCfg (builtinSpi (some lineRev)) (some (hiObj 6 4 (some ⟨6, Buf.ofList [0, 2, 1, 1, 0, 1]⟩))) true (sampleWorld [5, 6]) = some ((.ok, s'), w1') → s = s' :=
  fun s s' w1 w1' h h' => C80_stats (ob := hiObj 6 4 (some ⟨6, statLabels⟩)) (ob' := hiObj 6 4 (some ⟨6, Buf.ofList [0, 2, 1, 1, 0, 1]⟩)) (builtinMatrix lineData_complete) (builtinMatrix lineRev_complete)
    (statsOk_sample (by decide +kernel)) (statsOk_sample (by decide +kernel)) intExact (fun a b h1 h2 => Int.le_antisymm (of_decide_eq_true h1) (of_decide_eq_true h2)) reverse_renumbering rotate_renumbering rfl rfl lineData_finite
    lineRev_finite lineRev_dist rfl rfl (by show ∀ v, v < 6 → _; decide) h h'

example : statSummary (getStats sampleCfg (builtinSpi (some lineRev)) (some (hiObj 6 4 (some ⟨6, Buf.ofList [0, 2, 1, 1, 0, 1]⟩))) true (sampleWorld [5, 6])) =
    some (.ok, [6, 6, 4, 3, 1, 3], [2, 14 + 19, 0, 19, 7, 8, 8, 7]) := by decide +kernel

/-- The constraints of `typeRadiusOpts` for the points in reverse order, and another method to find seeds. -/
def typeRadiusRev : Options Int := { typeRadiusOpts 1 with seedMethod := .method .inwardsUpdating, typeLabels := some (Buf.ofList [1, 0, 1, 0, 1, 0]) }

theorem typeRadiusRev_call : CallOk sampleCfg typeRadiusRev lineObj (List.range 6) (fun v => (5 - v) % 2) (fun _ => 1) (sampleWorld [5]) := by
  refine line_callOk ⟨fun _ => rfl, nofun, by decide, ?_, (typeRadiusOpts_call 1).arrays.constraints⟩ (have h := (typeRadiusOpts_call 1).limits typeRadiusOpts_accepts.options; ⟨h.size, h.types⟩)
  intro b _ h v hv
  cases h
  revert v
  decide

example : ∃ p w1, scClustering sampleCfg (builtinSpi (some lineRev)) typeRadiusRev (some lineObj) (sampleWorld [5]) = some ((.ok, p), w1) :=
  C80_success_builtin intLaws lineData_complete lineRev_complete (fun _ _ _ _ => int_isNum _) reverse_renumbering lineRev_same (typeRadiusOpts_call 1) typeRadiusRev_call rfl rfl
    ⟨rfl, Iff.rfl, by decide, rfl, fun v hv => by
      have hv' : v < 6 := hv
      show (5 - (5 - v)) % 2 = v % 2
      rw [show 5 - (5 - v) = v by omega], fun _ _ => rfl⟩ rfl rfl (fun _ _ => by decide) nofun
    ⟨by decide, by decide, by decide, ⟨rfl, by decide, by decide, Or.inr ⟨by decide, by decide, nofun, by decide, nofun⟩, nofun, Or.inl ⟨rfl, rfl⟩, nofun, Or.inl rfl,
      ⟨Or.inr rfl, nofun, fun _ => by decide⟩, ⟨nofun, nofun⟩, ⟨nofun, nofun⟩, nofun⟩, rfl⟩
    (fun _ _ => rfl) ⟨fun m h => by
      cases h
      exact ⟨by simp [TooBig, SeedMethod.IsExclusion]; decide, fun h => absurd h.2 (by decide), fun h => absurd h.2 (by decide), fun _ => by decide⟩, nofun⟩ typeRadiusOpts_ok

end Scc
