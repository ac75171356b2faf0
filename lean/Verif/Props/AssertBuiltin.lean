/-
Property C69 for whole programs: the library and its built-in distance functions, all built with assertions. The calls do the same as in a build without assertions, for every data set
object, also one that does not fit the clustering.
-/
import Verif.Proofs.AssertBuiltin
import Verif.Props.Assert
import Verif.Props.Stats
import Verif.Props.AssertObjects

set_option linter.unusedVariables false

namespace Scc

variable {F : Type} [FloatOps F]

theorem isInitialized_eval (cfg : Cfg) {ob : ClObj} {w : World} (h : ob.id ∈ w.live) : isInitialized cfg (some ob) w = some (ob.cl.isInitialized cfg, w) := by
  obtain ⟨a, w', h1, h2⟩ : WpM (isInitialized cfg (some ob)) w fun r w' => r = ob.cl.isInitialized cfg ∧ w' = w := isInitialized_wp h ⟨rfl, rfl⟩
  rw [h1, h2.1, h2.2]

theorem run_bind {α β : Type} {x : M α} {f : α → M β} {w w' : World} {a : α} (h : x w = some (a, w')) : (x >>= f) w = f a w' := by
  show (x w).bind _ = _
  rw [h]
  rfl

/-- A data set that does not fit is rejected, with and without assertions. -/
theorem scClusteringDbg_bad {cfg : Cfg} {spi spi' : Spi F} {o : Options F} {ob : ClObj} {w : World} (hl : ob.id ∈ w.live) (hbad : ¬ (spi.valid = true ∧ spi.numPoints = ob.cl.n))
    (hv : spi'.valid = spi.valid) (hn : spi'.numPoints = spi.numPoints) :
    scClusteringDbg cfg spi' o (some ob) w = scClustering cfg spi o (some ob) w ∧ ∃ r w', scClusteringDbg cfg spi' o (some ob) w = some (r, w') := by
  unfold scClusteringDbg scClustering
  rw [run_bind (isInitialized_eval cfg hl), run_bind (isInitialized_eval cfg hl), hv, hn]
  cases ob.cl.isInitialized cfg with
  | false => exact ⟨rfl, _, _, rfl⟩
  | true =>
    dsimp only
    cases h : spi.valid with
    | false => exact ⟨rfl, _, _, rfl⟩
    | true =>
      have h2 : spi.numPoints ≠ ob.cl.n := fun e => hbad ⟨h, e⟩
      simp only [Bool.not_true, Bool.false_eq_true, if_false, if_pos h2]
      exact ⟨trivial, _, _, rfl⟩

theorem hierarchicalDbg_bad {cfg : Cfg} {hi : HiEnv F} {spi spi' : Spi F} {S : Nat} {batch : Bool} {ob : ClObj} {w : World} (hl : ob.id ∈ w.live)
    (hbad : ¬ (spi.valid = true ∧ spi.numPoints = ob.cl.n)) (hv : spi'.valid = spi.valid) (hn : spi'.numPoints = spi.numPoints) :
    hierarchicalDbg cfg hi spi' S batch (some ob) w = hierarchical cfg hi spi S batch (some ob) w ∧ ∃ r w', hierarchicalDbg cfg hi spi' S batch (some ob) w = some (r, w') := by
  have he : hiArgsError spi' ob.cl S = hiArgsError spi ob.cl S := by unfold hiArgsError; rw [hv, hn]
  unfold hierarchicalDbg hierarchical
  rw [run_bind (isInitialized_eval cfg hl), run_bind (isInitialized_eval cfg hl)]
  cases ob.cl.isInitialized cfg with
  | false => exact ⟨rfl, _, _, rfl⟩
  | true =>
    dsimp only
    rw [he]
    cases h : hiArgsError spi ob.cl S with
    | some e => exact ⟨rfl, _, _, rfl⟩
    | none =>
      exfalso
      unfold hiArgsError at h
      by_cases h1 : spi.valid = true
      · have h2 : spi.numPoints ≠ ob.cl.n := fun e => hbad ⟨h1, e⟩
        simp [h1, h2] at h
      · simp [h1] at h

/-- C69 for `scc_sc_clustering` with the built-in distance functions (all seed methods, with and without type constraints, and batches), without radii that are not numbers (for which it is
false, see `C69_clustering_fails`): when the library and the distance functions are built with assertions the call returns, with the same error code, clustering and state of memory as when
neither is, for all data sets and all failures of allocations. Missing: radii that are NaN; inputs for which the call has undefined behaviour (outside of `CallOk` and, for batches, `BatchFits`). -/
theorem C69_builtin_clustering_partial {cfg : Cfg} {ds : DataSet F} (hds : ds.Complete) {o : Options F} {ob : ClObj} {P : List Nat} {lab c : Nat → Nat} {w : World}
    (hc : CallOk cfg o ob P lab c w) (hpr : PositiveRadii o) (hfit : o.seedMethod = .batches → BatchFits o ob.cl.n) :
    scClusteringDbg cfg (builtinSpiDbg (some ds)) o (some ob) w = scClustering cfg (builtinSpi (some ds)) o (some ob) w ∧
    ∃ r w', scClusteringDbg cfg (builtinSpiDbg (some ds)) o (some ob) w = some (r, w') := by
  by_cases hg : (builtinSpi (some ds)).valid = true ∧ (builtinSpi (some ds)).numPoints = ob.cl.n
  · obtain ⟨hi, hn⟩ := hg
    change ds.isInitialized = true at hi
    change ds.n = ob.cl.n at hn
    have h1 := commonSpi_with (A := fun set k radius q a => a = nnAnswer (ds.sqd q) set k radius) hi hds fun _ _ _ _ _ _ _ _ _ => rfl
    have h2 := builtinSpi_ok ds hds
    rw [hn] at h1 h2
    obtain ⟨-, r, w', h3⟩ := C69_clustering_partial h1 hc hpr hfit
    have h4 := (scClusteringDbg_le (dbgRepl_above ds) cfg o (some ob)).le w _ h3
    have h5 := (scClusteringDbg_le (plainRepl_above ds) cfg o (some ob)).le w _ h3
    rw [dbgRepl_spi] at h4
    rw [plainRepl_spi, (C69_clustering_partial h2 hc hpr hfit).1] at h5
    exact ⟨h4.trans h5.symm, r, w', h4⟩
  · exact scClusteringDbg_bad (Multiset.mem_of_le hc.live (by simp)) hg rfl rfl

/-- C69 for `scc_hierarchical_clustering` with the built-in distance functions, without the case of many coincident points (for which it is false, see `C69_hierarchical_fails`). Distances must
not be NaN. Missing: clusters in which `2 * S` or more points coincide; inputs for which the call has undefined behaviour (`C17_fails`). -/
theorem C69_builtin_hierarchical_partial {cfg : Cfg} {ds : DataSet F} (hm : ds.Metric) {hi : HiEnv F} (hhi : hi.Ok) {S : Nat} {ob : ClObj} (batch : Bool) {w : World}
    (hc : HiCallOk cfg S ob w) (hsp : WellSpread S ds.dist ob.cl) :
    hierarchicalDbg cfg hi (builtinSpiDbg (some ds)) S batch (some ob) w = hierarchical cfg hi (builtinSpi (some ds)) S batch (some ob) w ∧
    ∃ r w', hierarchicalDbg cfg hi (builtinSpiDbg (some ds)) S batch (some ob) w = some (r, w') := by
  by_cases hg : (builtinSpi (some ds)).valid = true ∧ (builtinSpi (some ds)).numPoints = ob.cl.n
  · obtain ⟨hin, hn⟩ := hg
    change ds.isInitialized = true at hin
    change ds.n = ob.cl.n at hn
    have h1 := commonSpi_metric hin hm
    have h2 := builtinMetric hm
    have hd := hm.laws
    rw [hn] at h1 h2 hd
    obtain ⟨-, r, w', h3⟩ := C69_hierarchical_partial hhi hd h1 batch hc hsp
    have h4 := (hierarchicalDbg_le (dbgRepl_above ds) cfg hi S batch (some ob)).le w _ h3
    have h5 := (hierarchicalDbg_le (plainRepl_above ds) cfg hi S batch (some ob)).le w _ h3
    rw [dbgRepl_spi] at h4
    rw [plainRepl_spi, (C69_hierarchical_partial hhi hd h2 batch hc hsp).1] at h5
    exact ⟨h4.trans h5.symm, r, w', h4⟩
  · exact hierarchicalDbg_bad (Multiset.mem_of_le hc.live (by simp)) hg rfl rfl

/-- C69 for `scc_get_clustering_stats` with the built-in distance functions. -/
theorem C69_builtin_stats {cfg : Cfg} {ds : DataSet F} (hds : ds.Complete) {ob : ClObj} {w : World} (h : StatsOk cfg ob w) :
    getStatsDbg cfg (builtinSpiDbg (some ds)) (some ob) true w = getStats cfg (builtinSpi (some ds)) (some ob) true w ∧
    ∃ r w', getStatsDbg cfg (builtinSpiDbg (some ds)) (some ob) true w = some (r, w') := by
  by_cases hg : (builtinSpi (some ds)).valid = true ∧ (builtinSpi (some ds)).numPoints = ob.cl.n
  · obtain ⟨hin, hn⟩ := hg
    change ds.isInitialized = true at hin
    change ds.n = ob.cl.n at hn
    have h1 : MatrixOk (commonSpi ds) ds.n ds.dist False := commonMatrix hin hds
    rw [hn] at h1
    obtain ⟨r, w', h3, -⟩ := getStats_spec h1 h
    rw [← getStatsDbg_eq] at h3
    have h4 := (getStatsDbg_le (dbgRepl_above ds) cfg (some ob) true).le w _ h3
    have h5 := (getStatsDbg_le (plainRepl_above ds) cfg (some ob) true).le w _ h3
    rw [dbgRepl_spi] at h4
    rw [plainRepl_spi, getStatsDbg_eq] at h5
    exact ⟨h4.trans h5.symm, r, w', h4⟩
  · have hl := Multiset.mem_of_le h.live (show ob.id ∈ _ by simp)
    rw [getStatsDbg_eq]
    have he : statsError (builtinSpiDbg (some ds)) ob.cl = statsError (builtinSpi (some ds)) ob.cl := rfl
    unfold getStats
    simp only [Bool.not_true, Bool.false_eq_true, if_false]
    rw [run_bind (isInitialized_eval cfg hl), run_bind (isInitialized_eval cfg hl), ]
    cases ob.cl.isInitialized cfg with
    | false => exact ⟨rfl, _, _, rfl⟩
    | true =>
      dsimp only
      rw [he]
      cases h2 : statsError (builtinSpi (some ds)) ob.cl with
      | some e => exact ⟨rfl, _, _, rfl⟩
      | none =>
        exfalso
        unfold statsError at h2
        by_cases h1 : (builtinSpi (some ds)).valid = true
        · have h3 : (builtinSpi (some ds)).numPoints ≠ ob.cl.n := fun e => hg ⟨h1, e⟩
          simp [h1, h3] at h2
          split at h2 <;> simp at h2
        · simp [h1] at h2
          split at h2 <;> simp at h2

/-! ### Examples -/

/-- A call in which every stage is used, and one with batches. -/
example : lineData.Complete ∧ CallOk sampleCfg radiiOpts lineObj (List.range 6) (fun _ => 0) (fun _ => 0) (sampleWorld [5]) ∧ PositiveRadii radiiOpts ∧
    hiSummary (scClusteringDbg sampleCfg (builtinSpiDbg (some lineData)) radiiOpts (some lineObj) (sampleWorld [5])) =
      some (.ok, 2, [some 0, some 0, some 0, some 1, some 1, some 1]) ∧
    hiSummary (scClusteringDbg sampleCfg (builtinSpiDbg (some lineData)) (batchOpts .anyNeighbor 3) (some lineObj) (sampleWorld [5])) =
      some (.ok, 2, [some 0, some 0, some 0, some 1, some 1, some 1]) :=
  ⟨lineData_complete, radii_call, ⟨fun _ => by decide, nofun, fun _ => by decide⟩, by decide +kernel, by decide +kernel⟩

/-- A data set that does not fit: the error code is "invalid input". -/
example : nineData.Complete ∧ CallOk sampleCfg radiiOpts lineObj (List.range 6) (fun _ => 0) (fun _ => 0) (sampleWorld [5]) ∧
    (scClusteringDbg sampleCfg (builtinSpiDbg (some nineData)) radiiOpts (some lineObj) (sampleWorld [5])).map (fun r => r.1.1) = some .invalidInput :=
  ⟨nineData_complete, radii_call, by decide +kernel⟩

/-- A clustering with a large cluster that is broken up. -/
example : nineData.Metric ∧ HiCallOk sampleCfg 2 (hiObj 9 3 (some ⟨6, nineLabels⟩)) (sampleWorld [5, 6]) ∧ WellSpread 2 nineData.dist (hiObj 9 3 (some ⟨6, nineLabels⟩)).cl ∧
    hiSummary (hierarchicalDbg sampleCfg sampleEnv (builtinSpiDbg (some nineData)) 2 false (some (hiObj 9 3 (some ⟨6, nineLabels⟩))) (sampleWorld [5, 6])) =
      some (.ok, 4, [some 3, some 3, some 1, some 1, some 0, some 2, some 2, some 2, some sampleCfg.na]) :=
  ⟨intMetric nineData_complete, hiCallOk_nine, ⟨fun h => absurd h (by decide), by unfold Spread; decide +kernel⟩, by decide +kernel⟩

/-- A clustering with an empty cluster, a cluster with one point and two larger clusters. -/
example : lineData.Complete ∧ StatsOk sampleCfg (hiObj 6 4 (some ⟨6, statLabels⟩)) (sampleWorld [5, 6]) ∧
    statSummary (getStatsDbg sampleCfg (builtinSpiDbg (some lineData)) (some (hiObj 6 4 (some ⟨6, statLabels⟩))) true (sampleWorld [5, 6])) =
      some (.ok, [6, 6, 4, 3, 1, 3], [2, 14 + 19, 0, 19, 7, 8, 8, 7]) :=
  ⟨lineData_complete, statsOk_sample (by decide +kernel), by decide +kernel⟩

end Scc
