/-
C38 for hierarchical clustering, and C53: the state of the clustering object after a call, in particular after one that failed.
-/
import Verif.Spec.Intact
import Verif.Props.Failures
import Verif.Props.Hierarchical
import Verif.Props.Stats

set_option linter.unusedVariables false

namespace Scc

variable {F : Type} [FloatOps F]

/-! ### C38 for hierarchical clustering -/

/-- C38 for `scc_hierarchical_clustering`: whatever requests for memory fail, an accepted call returns. It returns "ok", or a request did fail and the call reports this. In both cases memory
holds the same blocks as before and possibly a new label array. (The inputs for which `C17_fails` shows undefined behaviour even without failures are excluded by `HiCallOk`.) -/
theorem C38_hierarchical {cfg : Cfg} {dist : Nat → Nat → F} {hi : HiEnv F} (hhi : hi.Ok) {spi : Spi F} {S : Nat} {ob : ClObj} (hd : DistLaws ob.cl.n dist)
    (hs : MetricOk spi ob.cl.n dist False) (batch : Bool) {w : World} (hc : HiCallOk cfg S ob w) (hacc : HiAccepts cfg spi.valid spi.numPoints S ob.cl)
    (hbig : ¬ HiTooBig cfg ob.cl.n ob.cl.numClusters) :
    ∃ e cl w' M, hierarchical cfg hi spi S batch (some ob) w = some ((e, some ⟨ob.id, cl⟩), w') ∧
      (e = .ok ∨ w'.err.code = e ∧ (e = .noMemory ∨ e = .distSearch) ∧ ¬ w.NoFail) ∧ w.live = ptrOwn ob.cl.label + M ∧ w'.live = ptrOwn cl.label + M := by
  obtain ⟨e, cl, w', h1, -, -, h2, -, h3, h4⟩ := C17_partial hhi hd hs batch hc
  obtain ⟨M, hM⟩ := Multiset.le_iff_exists_add.1 (le_trans (Multiset.le_add_left _ _) hc.live)
  refine ⟨e, cl, w', M, h1, ?_, hM, ?_⟩
  · by_cases he : e = .ok
    · exact Or.inl he
    · refine Or.inr ⟨(h3 he).1, ?_⟩
      rcases h4 with h4 | ⟨h4, -⟩ | ⟨-, h4⟩ | ⟨rfl, h4⟩ | ⟨rfl, h4⟩
      · exact absurd h4 he
      · exfalso
        rcases h4 with ⟨-, h2 | h2 | h2 | h2⟩ | ⟨-, -, -, -, -, h2⟩
        · rw [hacc.initialized] at h2; cases h2
        · rw [hacc.valid] at h2; cases h2
        · exact absurd hacc.points h2
        · have := hacc.size_two; omega
        · have := hacc.size_le; omega
      · exact absurd h4 hbig
      · exact ⟨Or.inl rfl, h4⟩
      · exact ⟨Or.inr rfl, h4.resolve_right fun x => x⟩
  · rw [hM] at h2
    have : w'.live + ptrOwn ob.cl.label = (ptrOwn cl.label + M) + ptrOwn ob.cl.label := by rw [h2]; abel
    exact add_right_cancel this

/-- Six points on a line: the hypotheses hold, and when the eighth request fails the call reports lack of memory. -/
example : HiCallOk sampleCfg 2 (hiObj 6 0 none) { sampleWorld [5] with fails := fun i _ => decide (i = 107) } ∧
    HiAccepts sampleCfg (builtinSpi (some lineData)).valid (builtinSpi (some lineData)).numPoints 2 (hiObj 6 0 none).cl ∧ ¬ HiTooBig sampleCfg 6 0 ∧
    (hierarchical sampleCfg sampleEnv (builtinSpi (some lineData)) 2 false (some (hiObj 6 0 none)) { sampleWorld [5] with fails := fun i _ => decide (i = 107) }).map (fun r => r.1.1) =
      some .noMemory :=
  have h := hiCallOk_sample (n := 6) (by decide)
  ⟨⟨h.config, h.live, h.room, h.twice, h.points, h.clusters, h.labels⟩, ⟨by decide, by decide, by decide, by decide, by decide⟩, by unfold HiTooBig; decide, by decide +kernel⟩

/-! ### C53 -/

theorem Intact.of_untouched {cfg : Cfg} {ob : ClObj} {cl' : Clustering} {w w' : World} (h : Intact cfg ob w) (hu : Untouched ob.cl cl') (hl : w.live ≤ w'.live) : Intact cfg ⟨ob.id, cl'⟩ w' := by
  have e := hu.flag
  rw [e]
  exact ⟨isInitialized_iff.2 (isInitialized_iff.1 h.initialized), le_trans h.live hl, h.room, h.labels⟩

theorem Intact.of_labelled {cfg : Cfg} {ob : ClObj} {k id : Nat} {l : Buf Int} {cl' : Clustering} {w w' : World} {M : Multiset Nat} (h : Intact cfg ob w) (hl : Labelled ob.cl k id l cl')
    (hk : k ≤ cfg.clabelMax) (hv : 0 < k → ValidLabels cfg l ob.cl.n k) (h1 : w.live = ptrOwn ob.cl.label + M) (h2 : w'.live = {id} + M) : Intact cfg ⟨ob.id, cl'⟩ w' := by
  refine ⟨hl.initialized h.initialized hk, ?_, ?_, ?_⟩
  · dsimp only
    rw [hl.eq, h2]
    exact two_live h.live h1
  · intro lb hlb
    dsimp only at hlb ⊢
    rw [hl.eq] at hlb ⊢
    cases hlb
    dsimp only
    cases hlab : ob.cl.label with
    | none => exact le_of_eq (hl.new hlab).symm
    | some lb => rw [(hl.old lb hlab).2]; exact h.room lb hlab
  · intro hk' lb hlb
    dsimp only at hk' hlb ⊢
    rw [hl.eq] at hlb hk' ⊢
    cases hlb
    exact hv hk'

/-- C53 for `scc_sc_clustering`. Whatever the call returns, and whatever requests for memory (among those that the code checks) and searches fail, the clustering object can be used afterwards. -/
theorem C53_sc_clustering {cfg : Cfg} {spi : Spi F} {A : Criterion F} {dist : Nat → Nat → F} {mayRefuse : Prop} {o : Options F} {ob : ClObj}
    (hs : SpiOk spi ob.cl.n A dist mayRefuse) {P : List Nat} {lab c : Nat → Nat} {w : World} (hc : CallOk cfg o ob P lab c w) (hfit : o.seedMethod = .batches → BatchFits o ob.cl.n)
    (hr : Intact cfg ob w) :
    ∃ e cl' w', scClustering cfg spi o (some ob) w = some ((e, some ⟨ob.id, cl'⟩), w') ∧ cl'.n = ob.cl.n ∧ Intact cfg ⟨ob.id, cl'⟩ w' := by
  have hrej : ∀ r w', RejectPost cfg spi o ob P w r w' → ∃ cl', r.2 = some ⟨ob.id, cl'⟩ ∧ cl'.n = ob.cl.n ∧ Intact cfg ⟨ob.id, cl'⟩ w' :=
    fun r w' h => ⟨ob.cl, h.same, rfl, hr.of_untouched (.refl _) (le_of_eq h.live.symm)⟩
  have hlab : ∀ {k id l cl'} {w' : World} {M}, Labelled ob.cl k id l cl' → k ≤ cfg.clabelMax → (0 < k → ValidLabels cfg l ob.cl.n k) → w.live = ptrOwn ob.cl.label + M → w'.live = {id} + M →
      cl'.n = ob.cl.n ∧ Intact cfg ⟨ob.id, cl'⟩ w' := fun h h1 h2 h3 h4 => ⟨by rw [h.eq], hr.of_labelled h h1 h2 h3 h4⟩
  have hunt : ∀ {cl'} {w' : World} {M : Multiset Nat} {x}, Untouched ob.cl cl' → w.live = ptrOwn ob.cl.label + M → w'.live = x + (ptrOwn ob.cl.label + M) → cl'.n = ob.cl.n ∧ Intact cfg ⟨ob.id, cl'⟩ w' :=
    fun h h1 h2 => ⟨by rw [h.flag], hr.of_untouched h (by rw [h1, h2]; exact Multiset.le_add_left _ _)⟩
  suffices h : WpM (scClustering cfg spi o (some ob)) w fun r w' => ∃ cl', r.2 = some ⟨ob.id, cl'⟩ ∧ cl'.n = ob.cl.n ∧ Intact cfg ⟨ob.id, cl'⟩ w' by
    obtain ⟨⟨e, p⟩, w', h1, cl', h2, h3, h4⟩ := h
    dsimp only at h2
    subst h2
    exact ⟨e, cl', w', h1, h3, h4⟩
  cases hsm : o.seedMethod with
  | unknown =>
    refine scClustering_checks (Multiset.mem_of_le hr.live (by simp)) hc.arrays hrej fun hacc => ?_
    exact absurd hsm hacc.options.seed
  | method m =>
    refine (scClustering_spec hs hc hsm).mono ?_
    rintro ⟨e, p⟩ w' (h | ⟨hacc, hf, M, cl', hlive, hp, h⟩)
    · exact hrej _ _ h
    · dsimp only at hp h
      refine ⟨cl', hp, ?_⟩
      cases h with
      | done _ _ rows order L2 L3 L id l data lab' live => exact hlab lab' data.cap (fun _ => data.labels.valid (data.lt hacc.options.size_two)) hlive live
      | early _ _ _ leak cause unt err live leaked => exact hunt unt hlive live
      | late _ _ _ L id l cause err search labels lt pos cap lab' live => exact hlab lab' cap (fun _ => labels.valid lt) hlive live
  | batches =>
    refine (scBatches_spec hs hc hsm (hfit hsm)).mono ?_
    rintro ⟨e, p⟩ w' (h | ⟨hacc, hf, ⟨-, h, h3, h4⟩ | ⟨hum, M, cl', hlive, hp, h⟩⟩)
    · exact hrej _ _ h
    · cases h
      exact ⟨ob.cl, rfl, rfl, hr.of_untouched (.refl _) (le_of_eq h4.symm)⟩
    · dsimp only at hp h
      refine ⟨cl', hp, ?_⟩
      cases h with
      | done _ _ evs id l run count pos cap labels lab' live =>
        have hlt := batch_labelsLt run (by have := hacc.options.size_two; omega) hc.arrays.range
        rw [← count] at hlt
        exact hlab lab' cap (fun _ => labels.valid hlt) hlive live
      | failed _ _ _ cause err after =>
        rcases after with ⟨unt, live⟩ | ⟨id, l, lab', live⟩
        · exact hunt unt hlive (live.trans (zero_add _).symm)
        · exact hlab lab' (Nat.zero_le _) (fun h => absurd h (lt_irrefl 0)) hlive live
      | noSeeds _ _ evs id l run none err labels lab' live => exact hlab lab' (Nat.zero_le _) (fun h => absurd h (lt_irrefl 0)) hlive live

/-- A call that fails while it assigns points: the hypotheses hold, and the object is left with one cluster. -/
example : ∃ w : World, CallOk sampleCfg (fourOpts (.method .lexical) .closestSeed .noRadius true) lineObj (fourP true) (fun _ => 0) (fun _ => 0) w ∧ Intact sampleCfg lineObj w ∧
    (scClustering sampleCfg (builtinSpi (some lineData)) (fourOpts (.method .lexical) .closestSeed .noRadius true) (some lineObj) w).map (fun r => (r.1.1, r.1.2.map fun ob => ob.cl.numClusters)) =
      some (.noMemory, some 1) := by
  have h := four_call (.method .lexical) .closestSeed .noRadius true
  refine ⟨(sampleWorld [5]).withFails fun i c => decide (i = 110) && c, ⟨h.config, h.live, h.room, h.arrays, h.limits, fun i => ?_⟩, ⟨by decide, h.live, h.room, fun h => absurd h (by decide)⟩, by decide +kernel⟩
  show (decide (i = 110) && false) = false
  simp

/-- C53 for `scc_hierarchical_clustering`, without failures during the refinement of a non-empty clustering, after which it is false (`C53_fails`): if the clustering was empty, or the call
succeeds or is rejected, the clustering object can be used afterwards. Missing: failures during the refinement of a non-empty clustering; data sets with many coincident points. -/
theorem C53_hierarchical_partial {cfg : Cfg} {dist : Nat → Nat → F} {hi : HiEnv F} (hhi : hi.Ok) {spi : Spi F} {mayRefuse : Prop} {S : Nat} {ob : ClObj} (hd : DistLaws ob.cl.n dist)
    (hs : MetricOk spi ob.cl.n dist mayRefuse) (batch : Bool) {w : World} (hc : HiCallOk cfg S ob w) (hempty : ob.cl.numClusters = 0 → Spread S dist (List.range ob.cl.n))
    (hsp : ∀ c, c < ob.cl.numClusters → Spread S dist (members (ptrBuf ob.cl.label) ob.cl.n c)) (hr : Intact cfg ob w) :
    ∃ e cl' w', hierarchical cfg hi spi S batch (some ob) w = some ((e, some ⟨ob.id, cl'⟩), w') ∧ cl'.n = ob.cl.n ∧
      (ob.cl.numClusters = 0 ∨ e = .ok ∨ HiRejects cfg spi.valid spi.numPoints S ob.cl e → Intact cfg ⟨ob.id, cl'⟩ w') := by
  obtain ⟨⟨e, p⟩, w', h1, hf, h2⟩ := hierarchical_spec hhi hd hs batch hc
  rcases h2 with ⟨h2, h3, h4, h5⟩ | ⟨hacc, M, cl', hlive, hM, hp, h2⟩
  · dsimp only at h5
    subst h5
    exact ⟨e, ob.cl, w', h1, rfl, fun _ => hr.of_untouched (.refl _) (le_of_eq h4.symm)⟩
  dsimp only at hp h2
  subst hp
  refine ⟨e, cl', w', h1, ?_⟩
  have hnorej : e ≠ .ok → ¬ HiRejects cfg spi.valid spi.numPoints S ob.cl e := by
    rintro he (⟨-, h2 | h2 | h2 | h2⟩ | ⟨-, -, -, -, -, h2⟩)
    · rw [hacc.initialized] at h2; cases h2
    · rw [hacc.valid] at h2; cases h2
    · exact absurd hacc.points h2
    · have := hacc.size_two; omega
    · have := hacc.size_le; omega
  cases h2 with
  | done _ _ labels0 id l cs old result lab' live err =>
    refine ⟨by rw [lab'.eq], fun _ => hr.of_labelled lab' result.cap (fun _ => ?_) hlive live⟩
    have e1 : cl'.label = some ⟨id, l⟩ := by rw [lab'.eq]
    by_cases hk : ob.cl.numClusters = 0
    · obtain ⟨_, _, _, g1, g2⟩ := C15_partial hhi hd hs batch hc hk (hempty hk)
      rw [h1] at g1
      cases g1
      obtain ⟨-, cl, b, hcl, -, hb, -, -, hq⟩ := g2 rfl
      cases hcl
      rw [e1] at hb
      cases hb
      exact fun v hv => Or.inr (hq.1 v hv)
    · obtain ⟨_, _, _, g1, g2⟩ := C16_partial hhi hd hs batch hc hk hsp
      rw [h1] at g1
      cases g1
      obtain ⟨-, cl, b, hcl, -, hb, -, -, hq⟩ := g2 rfl
      cases hcl
      rw [e1] at hb
      cases hb
      exact hq.valid
  | early _ _ _ cause err unt live =>
    exact ⟨by rw [unt.flag], fun _ => hr.of_untouched unt (by rw [live, hlive])⟩
  | late _ _ _ id l cause err lab' kept live =>
    refine ⟨by rw [lab'.eq], ?_⟩
    rintro (h | h | h)
    · exact hr.of_labelled lab' (by rw [h]; exact Nat.zero_le _) (fun h' => absurd h (by omega)) hlive live
    · exact absurd h cause.ne_ok
    · exact absurd h (hnorej cause.ne_ok)

/-- Nine points in three clusters (the last point in none): the hypotheses hold. -/
example : HiCallOk sampleCfg 2 (hiObj 9 3 (some ⟨6, nineLabels⟩)) (sampleWorld [5, 6]) ∧ (∀ c, c < 3 → Spread 2 nineData.dist (members nineLabels 9 c)) ∧
    Intact sampleCfg (hiObj 9 3 (some ⟨6, nineLabels⟩)) (sampleWorld [5, 6]) :=
  ⟨hiCallOk_nine, by unfold Spread; decide +kernel, by decide, hiCallOk_nine.live, hiCallOk_nine.room, fun _ lb h => (hiCallOk_nine.labels (by decide) lb h).1⟩

/-- Whatever the call returned, statistics can be computed afterwards without undefined behaviour. -/
theorem C53_then_stats {cfg : Cfg} (hcfg : cfg.Valid) {spi : Spi F} {dist : Nat → Nat → F} {mayRefuse : Prop} {ob : ClObj} {w : World} (hm : MatrixOk spi ob.cl.n dist mayRefuse)
    (hr : Intact cfg ob w) (hsize : ob.cl.n * (ob.cl.n - 1) ≤ cfg.sizeMax ∧ ob.cl.n * (ob.cl.n - 1) < 2 ^ 64) : ∃ r w', getStats cfg spi (some ob) true w = some (r, w') ∧ w'.live = w.live := by
  obtain ⟨r, w', h1, h2, -⟩ := getStats_spec hm ⟨hcfg, hr.live, hr.labels, hsize⟩
  exact ⟨r, w', h1, h2⟩

/-- Eleven points on a line. -/
def elevenData : DataSet Int := mkData 1 [0, 3, 7, 12, 20, 29, 39, 50, 62, 75, 89]

theorem elevenData_complete : elevenData.Complete := mkData_complete (by decide)

/-- Two clusters: the first four points and the last seven. -/
def elevenLabels : Buf Int := Buf.ofList [0, 0, 0, 0, 1, 1, 1, 1, 1, 1, 1]

def elevenObj : ClObj := hiObj 11 2 (some ⟨6, elevenLabels⟩)

/-- One request for memory fails: the third of the back end. -/
def elevenWorld : World := { sampleWorld [5, 6] with fails := fun i _ => decide (i = 110) }

theorem elevenLabels_valid : ValidLabels sampleCfg elevenLabels 11 2 := by unfold ValidLabels Unassigned; decide +kernel

theorem hiCallOk_eleven : HiCallOk sampleCfg 2 elevenObj elevenWorld where
  config := sampleCfg_valid
  live := le_refl ({5, 6} : Multiset Nat)
  room := by
    rintro lb h
    cases h
    show 11 ≤ elevenLabels.len
    decide
  twice := by decide
  points := by decide
  clusters := by decide
  labels := by
    rintro - lb h
    cases h
    exact ⟨elevenLabels_valid, Or.inr ⟨1, by decide, by decide, by unfold members; decide +kernel⟩⟩

theorem intact_eleven : Intact sampleCfg elevenObj elevenWorld where
  initialized := by decide
  live := hiCallOk_eleven.live
  room := hiCallOk_eleven.room
  labels := by
    rintro - lb h
    cases h
    exact elevenLabels_valid

/-- C53 is false for the refinement of a clustering: the clusters are labelled one after the other, and when the call fails in between, the labels of the clusters made so far stay while
the number of clusters is still the old one. Here the call reports a failed search. Afterwards three points have label 2 although there are two clusters, points 0 and 4 from different
clusters have the same label, and a request for statistics or a second attempt to refine the clustering has undefined behaviour. -/
theorem C53_fails : HiCallOk sampleCfg 2 elevenObj elevenWorld ∧ Intact sampleCfg elevenObj elevenWorld ∧ Nonempty (MetricOk (builtinSpi (some elevenData)) 11 elevenData.dist False) ∧
    hiSummary (hierarchical sampleCfg sampleEnv (builtinSpi (some elevenData)) 2 false (some elevenObj) elevenWorld) =
      some (.distSearch, 2, [some 0, some 0, some 0, some 0, some 0, some 0, some 1, some 1, some 2, some 2, some 2]) ∧
    ∃ ob w', hierarchical sampleCfg sampleEnv (builtinSpi (some elevenData)) 2 false (some elevenObj) elevenWorld = some ((.distSearch, some ob), w') ∧ ¬ Intact sampleCfg ob w' ∧
      getStats sampleCfg (builtinSpi (some elevenData)) (some ob) true w' = none ∧
      hierarchical sampleCfg sampleEnv (builtinSpi (some elevenData)) 2 false (some ob) w' = none := by
  have hrun : hiSummary (hierarchical sampleCfg sampleEnv (builtinSpi (some elevenData)) 2 false (some elevenObj) elevenWorld) =
      some (.distSearch, 2, [some 0, some 0, some 0, some 0, some 0, some 0, some 1, some 1, some 2, some 2, some 2]) := by decide +kernel
  have hnext : (hierarchical sampleCfg sampleEnv (builtinSpi (some elevenData)) 2 false (some elevenObj) elevenWorld).map (fun r =>
      ((getStats sampleCfg (builtinSpi (some elevenData)) r.1.2 true r.2).isNone, (hierarchical sampleCfg sampleEnv (builtinSpi (some elevenData)) 2 false r.1.2 r.2).isNone)) = some (true, true) := by
    decide +kernel
  refine ⟨hiCallOk_eleven, intact_eleven, ⟨builtinMetric (intMetric elevenData_complete)⟩, hrun, ?_⟩
  obtain ⟨e, cl, w', h1, h2, -⟩ := C17_partial sampleEnv_ok (intMetric elevenData_complete).laws (builtinMetric (intMetric elevenData_complete)) false hiCallOk_eleven
  rw [h1] at hrun hnext ⊢
  simp only [hiSummary, Option.bind_some, Option.map_some, Option.some.injEq, Prod.mk.injEq] at hrun hnext
  obtain ⟨rfl, hk, hl⟩ := hrun
  refine ⟨_, _, rfl, fun hr => ?_, Option.isNone_iff_eq_none.1 hnext.1, Option.isNone_iff_eq_none.1 hnext.2⟩
  have hstats := C53_then_stats sampleCfg_valid (spi := builtinSpi (some elevenData)) (dist := elevenData.dist) (mayRefuse := False) (by dsimp only; rw [h2]; exact builtinMatrix elevenData_complete) hr
    (by dsimp only; rw [h2]; decide)
  obtain ⟨r, w2, h3, -⟩ := hstats
  rw [h3] at hnext
  cases hnext.1

/-! ### C54 -/

/-- C54 for `scc_sc_clustering` when remaining points are ignored or assigned by the digraph: if an accepted call on a problem that has a solution fails because a request failed, the same call
succeeds once requests succeed. Missing: the methods that search for the closest cluster, for which it is false (`C54_fails`). -/
theorem C54_retry_partial {cfg : Cfg} {spi : Spi F} {A : Criterion F} {dist : Nat → Nat → F} {o : Options F} {ob : ClObj}
    (hs : SpiOk spi ob.cl.n A dist False) {P : List Nat} {lab c : Nat → Nat} {w : World} (hc : CallOk cfg o ob P lab c w) {m : SeedMethod} (hm : o.seedMethod = .method m)
    (hacc : Accepts cfg spi.valid spi.numPoints o ob.cl P) (hsol : Solvable cfg A dist ob.cl.n o m P lab c)
    (hbig : m.IsExclusion → ob.cl.n * ob.cl.n ≤ cfg.arcMax ∧ ob.cl.n * ob.cl.n ≤ cfg.sizeMax)
    (hum : o.primaryMethod = .ignore ∨ o.primaryMethod = .anyNeighbor) (hum2 : o.secondaryMethod = .ignore) :
    ∃ e cl' w', scClustering cfg spi o (some ob) w = some ((e, some ⟨ob.id, cl'⟩), w') ∧
      (e ≠ .ok → ∀ w2 : World, w2.NoFail → w'.live ≤ w2.live → ∃ cl2 w3, scClustering cfg spi o (some ⟨ob.id, cl'⟩) w2 = some ((.ok, some ⟨ob.id, cl2⟩), w3)) := by
  obtain ⟨⟨e, p⟩, w', h1, h2⟩ := scClustering_spec hs hc hm
  rcases h2 with h2 | ⟨-, -, M, cl', hlive, hp, h2⟩
  · exact absurd hacc fun h => h2.cause.not_accepts h
  dsimp only at hp h2
  subst hp
  refine ⟨e, cl', w', h1, fun he w2 hw2 hl2 => ?_⟩
  cases h2 with
  | done _ _ rows order L2 L3 L id l data lab' live => exact absurd rfl he
  | late _ _ _ L id l cause err search labels lt pos cap lab' live =>
    rcases hum with h | h
    · exact absurd h (search hum2).1
    · exact absurd h (search hum2).2
  | early _ _ _ leak cause unt err live leaked =>
    have hw : w.live ≤ w2.live := by rw [hlive]; exact le_trans (by rw [live]; exact Multiset.le_add_left _ _) hl2
    have e' := unt.flag
    generalize cl'.external = x at e'
    subst e'
    have hc2 : CallOk cfg o ⟨ob.id, { ob.cl with external := x }⟩ P lab c w2 := ⟨hc.config, le_trans hc.live hw, hc.room, hc.arrays, hc.limits, fun i => hw2 i false⟩
    have hacc2 : Accepts cfg spi.valid spi.numPoints o { ob.cl with external := x } P :=
      ⟨isInitialized_iff.2 (isInitialized_iff.1 hacc.initialized), hacc.valid, hacc.points, hacc.options, hacc.empty⟩
    obtain ⟨e2, cl2, w3, leak2, M2, g1, g2, -⟩ := C38_failures_reported_partial (ob := ⟨ob.id, { ob.cl with external := x }⟩) hs hc2 hm hacc2 hsol
    have : e2 = .ok := by
      rcases g2 with g2 | ⟨-, ⟨-, g2⟩ | ⟨-, g2, g3⟩⟩
      · exact g2
      · exact absurd hw2 g2
      · have := hbig g2
        dsimp only at g3
        omega
    subst this
    exact ⟨cl2, w3, g1⟩

/-- The hypotheses hold for the six points on the line, and the first request of all fails. -/
example : ∃ w : World, CallOk sampleCfg (fourOpts (.method .lexical) .anyNeighbor .noRadius true) lineObj (fourP true) (fun _ => 0) (fun _ => 0) w ∧
    Accepts sampleCfg (builtinSpi (some lineData)).valid (builtinSpi (some lineData)).numPoints (fourOpts (.method .lexical) .anyNeighbor .noRadius true) lineObj.cl (fourP true) ∧
    Solvable sampleCfg lineA lineData.dist 6 (fourOpts (.method .lexical) .anyNeighbor .noRadius true) .lexical (fourP true) (fun _ => 0) (fun _ => 0) ∧
    (scClustering sampleCfg (builtinSpi (some lineData)) (fourOpts (.method .lexical) .anyNeighbor .noRadius true) (some lineObj) w).map (fun r => r.1.1) = some .distSearch := by
  have h := four_call (.method .lexical) .anyNeighbor .noRadius true
  refine ⟨(sampleWorld [5]).withFails fun i c => decide (i = 100) && c, ⟨h.config, h.live, h.room, h.arrays, h.limits, fun i => ?_⟩,
    four_accepts true nofun nofun (Or.inl rfl) nofun, four_solvable true (Or.inl rfl), by decide +kernel⟩
  show (decide (i = 100) && false) = false
  simp

/-- C54 for batches: if an accepted call fails for whatever reason, the same call is accepted again; once requests succeed it returns "ok" unless no cluster can be formed. -/
theorem C54_retry_batches {cfg : Cfg} {spi : Spi F} {A : Criterion F} {dist : Nat → Nat → F} {o : Options F} {ob : ClObj}
    (hs : SpiOk spi ob.cl.n A dist False) {P : List Nat} {lab c : Nat → Nat} {w : World} (hc : CallOk cfg o ob P lab c w) (hm : o.seedMethod = .batches) (hfit : BatchFits o ob.cl.n)
    (hacc : Accepts cfg spi.valid spi.numPoints o ob.cl P) (hum : o.primaryMethod = .ignore ∨ o.primaryMethod = .anyNeighbor) (hn : ob.cl.n ≤ cfg.clabelMax) :
    ∃ e cl' w', scClustering cfg spi o (some ob) w = some ((e, some ⟨ob.id, cl'⟩), w') ∧
      (e ≠ .ok → ∀ w2 : World, w2.NoFail → w'.live ≤ w2.live → ∃ e2 cl2 w3, scClustering cfg spi o (some ⟨ob.id, cl'⟩) w2 = some ((e2, some ⟨ob.id, cl2⟩), w3) ∧ (e2 = .ok ∨ e2 = .noSolution)) := by
  obtain ⟨⟨e, p⟩, w', h1, h2⟩ := scBatches_spec hs hc hm hfit
  rcases h2 with h2 | ⟨-, -, ⟨⟨h3, h4⟩, -⟩ | ⟨-, M, cl', hlive, hp, h2⟩⟩
  · exact absurd hacc fun h => h2.cause.not_accepts h
  · rcases hum with h | h
    · exact absurd h h3
    · exact absurd h h4
  dsimp only at hp h2
  subst hp
  refine ⟨e, cl', w', h1, fun he w2 hw2 hl2 => ?_⟩
  have key : cl'.n = ob.cl.n → cl'.numClusters = 0 → Intact cfg ⟨ob.id, cl'⟩ w' →
      ∃ e2 cl2 w3, scClustering cfg spi o (some ⟨ob.id, cl'⟩) w2 = some ((e2, some ⟨ob.id, cl2⟩), w3) ∧ (e2 = .ok ∨ e2 = .noSolution) := by
    intro g1 g2 g3
    obtain ⟨e2, cl2, w3, M2, k1, k2, -⟩ := C38_failures_reported_batches_partial (ob := ⟨ob.id, cl'⟩) (w := w2) (A := A) (dist := dist) (P := P) (lab := lab) (c := c) (o := o) (cfg := cfg)
      (by dsimp only; rw [g1]; exact hs)
      ⟨hc.config, le_trans g3.live hl2, g3.room, by dsimp only; rw [g1]; exact hc.arrays, by dsimp only; rw [g1]; exact hc.limits, fun i => hw2 i false⟩ hm (by dsimp only; rw [g1]; exact hfit)
      ⟨g3.initialized, hacc.valid, by dsimp only; rw [g1]; exact hacc.points, by dsimp only; rw [g1]; exact hacc.options, g2⟩ hum (by dsimp only; rw [g1]; exact hn)
    refine ⟨e2, cl2, w3, k1, ?_⟩
    rcases k2 with k2 | ⟨-, ⟨-, k2⟩ | k2⟩
    · exact Or.inl k2
    · exact absurd hw2 k2
    · exact Or.inr k2
  have hr : Intact cfg ob w := ⟨hacc.initialized, hc.live, hc.room, fun h => absurd hacc.empty (by omega)⟩
  cases h2 with
  | done _ _ evs id l run count pos cap labels lab' live => exact absurd rfl he
  | failed _ _ _ cause err after =>
    rcases after with ⟨unt, live⟩ | ⟨id, l, lab', live⟩
    · exact key (by rw [unt.flag]) (by rw [unt.flag]; exact hacc.empty) (hr.of_untouched unt (by rw [live, hlive]))
    · exact key (by rw [lab'.eq]) (by rw [lab'.eq]) (hr.of_labelled lab' (Nat.zero_le _) (fun h => absurd h (lt_irrefl 0)) hlive live)
  | noSeeds _ _ evs id l run none err labels lab' live =>
    exact key (by rw [lab'.eq]) (by rw [lab'.eq]) (hr.of_labelled lab' (Nat.zero_le _) (fun h => absurd h (lt_irrefl 0)) hlive live)

/-- C54 for `scc_hierarchical_clustering` on an empty clustering: if an accepted call fails because a request failed, the same call succeeds once requests succeed. (For other clusterings see
`C53_fails`.) -/
theorem C54_retry_hierarchical {cfg : Cfg} {dist : Nat → Nat → F} {hi : HiEnv F} (hhi : hi.Ok) {spi : Spi F} {S : Nat} {ob : ClObj} (hd : DistLaws ob.cl.n dist)
    (hs : MetricOk spi ob.cl.n dist False) (batch : Bool) {w : World} (hc : HiCallOk cfg S ob w) (hacc : HiAccepts cfg spi.valid spi.numPoints S ob.cl)
    (hbig : ¬ HiTooBig cfg ob.cl.n 0) (hempty : ob.cl.numClusters = 0) :
    ∃ e cl' w', hierarchical cfg hi spi S batch (some ob) w = some ((e, some ⟨ob.id, cl'⟩), w') ∧
      (e ≠ .ok → ∀ w2 : World, w2.NoFail → w'.live ≤ w2.live → ∃ p w3, hierarchical cfg hi spi S batch (some ⟨ob.id, cl'⟩) w2 = some ((.ok, p), w3)) := by
  obtain ⟨⟨e, p⟩, w', h1, hf, h2⟩ := hierarchical_spec hhi hd hs batch hc
  rcases h2 with ⟨h2, -⟩ | ⟨-, M, cl', hlive, hM, hp, h2⟩
  · exfalso
    rcases h2 with ⟨-, h2 | h2 | h2 | h2⟩ | ⟨-, -, -, -, -, h2⟩
    · rw [hacc.initialized] at h2; cases h2
    · rw [hacc.valid] at h2; cases h2
    · exact absurd hacc.points h2
    · have := hacc.size_two; omega
    · have := hacc.size_le; omega
  dsimp only at hp h2
  subst hp
  refine ⟨e, cl', w', h1, fun he w2 hw2 hl2 => ?_⟩
  have key : cl'.n = ob.cl.n → cl'.numClusters = 0 → Intact cfg ⟨ob.id, cl'⟩ w' → ∃ p w3, hierarchical cfg hi spi S batch (some ⟨ob.id, cl'⟩) w2 = some ((.ok, p), w3) := by
    intro g1 g2 g3
    refine C17_succeeds (ob := ⟨ob.id, cl'⟩) hhi (dist := dist) (by dsimp only; rw [g1]; exact hd) (by dsimp only; rw [g1]; exact hs) batch
      ⟨hc.config, le_trans g3.live hl2, g3.room, hc.twice, by dsimp only; rw [g1]; exact hc.points, by dsimp only; rw [g2, ← hempty]; exact hc.clusters, fun h => absurd g2 h⟩
      ⟨g3.initialized, hacc.valid, by dsimp only; rw [g1]; exact hacc.points, hacc.size_two, by dsimp only; rw [g1]; exact hacc.size_le⟩ hw2 (by dsimp only; rw [g1, g2]; exact hbig)
  have hr : Intact cfg ob w := ⟨hacc.initialized, hc.live, hc.room, fun h => absurd hempty (by omega)⟩
  cases h2 with
  | done _ _ labels0 id l cs old result lab' live err => exact absurd rfl he
  | early _ _ _ cause err unt live => exact key (by rw [unt.flag]) (by rw [unt.flag]; exact hempty) (hr.of_untouched unt (by rw [live, hlive]))
  | late _ _ _ id l cause err lab' kept live =>
    exact key (by rw [lab'.eq]) (by rw [lab'.eq]; exact hempty) (hr.of_labelled lab' (by rw [hempty]; exact Nat.zero_le _) (fun h => absurd hempty (by omega)) hlive live)

/-- The hypotheses of `C54_retry_batches` hold for the six points on the line, and the third request fails. -/
example : ∃ w : World, CallOk sampleCfg (fourOpts .batches .anyNeighbor .useSeedRadius true) lineObj (fourP true) (fun _ => 0) (fun _ => 0) w ∧
    Accepts sampleCfg (builtinSpi (some lineData)).valid (builtinSpi (some lineData)).numPoints (fourOpts .batches .anyNeighbor .useSeedRadius true) lineObj.cl (fourP true) ∧
    BatchFits (fourOpts .batches .anyNeighbor .useSeedRadius true) 6 ∧
    (scClustering sampleCfg (builtinSpi (some lineData)) (fourOpts .batches .anyNeighbor .useSeedRadius true) (some lineObj) w).map (fun r => r.1.1) = some .noMemory := by
  have h := four_call .batches .anyNeighbor .useSeedRadius true
  refine ⟨(sampleWorld [5]).withFails fun i c => decide (i = 102) && c, ⟨h.config, h.live, h.room, h.arrays, h.limits, fun i => ?_⟩,
    four_accepts true nofun nofun (Or.inr rfl) fun _ => rfl, by show 4 * 6 < 2 ^ 32; decide, by decide +kernel⟩
  show (decide (i = 102) && false) = false
  simp

/-- C54 is false for the methods that search: when the call fails while it assigns the remaining points, it leaves a clustering with some points assigned, although it reports a failure. Any
further call for that object with valid options is rejected as "not implemented". -/
theorem C54_no_retry {cfg : Cfg} {spi : Spi F} {o : Options F} {ob : ClObj} {P : List Nat} {lab c : Nat → Nat} {w : World} (hl : ob.id ∈ w.live) (ha : OptionArrays ob.cl.n o P lab c)
    (hi : ob.cl.isInitialized cfg = true) (hv : spi.valid = true) (hp : spi.numPoints = ob.cl.n) (ho : ValidOptions o ob.cl.n P) (hk : ob.cl.numClusters ≠ 0) :
    ∃ w', scClustering cfg spi o (some ob) w = some ((.notImplemented, some ob), w') := by
  have h := scClustering_checks (cfg := cfg) (spi := spi) hl ha (Q := fun r w' => RejectPost cfg spi o ob P w r w') (fun r w' h => h) fun hacc => absurd hacc.empty hk
  obtain ⟨⟨e, p⟩, w', h1, h2⟩ := h
  have h3 := h2.same
  dsimp only at h3
  subst h3
  rcases h2.cause with ⟨-, h | h | h⟩ | ⟨h, -⟩ | ⟨h, -⟩
  · rw [hi] at h; cases h
  · rw [hv] at h; cases h
  · exact absurd hp h
  · exact absurd ho h
  · dsimp only at h
    subst h
    exact ⟨w', h1⟩

/-- A witness: six points on a line, clusters of four points, remaining points join the closest seed. One request for memory (which the code checks) fails. The call reports lack of memory and
leaves one cluster; the second attempt is rejected although nothing fails any more. Without the failure the first attempt succeeds. -/
theorem C54_fails : CallOk sampleCfg (fourOpts (.method .lexical) .closestSeed .noRadius false) lineObj (fourP false) (fun _ => 0) (fun _ => 0) ((sampleWorld [5]).withFails fun i c => decide (i = 110) && c) ∧
    Accepts sampleCfg (builtinSpi (some lineData)).valid (builtinSpi (some lineData)).numPoints (fourOpts (.method .lexical) .closestSeed .noRadius false) lineObj.cl (fourP false) ∧
    Solvable sampleCfg lineA lineData.dist 6 (fourOpts (.method .lexical) .closestSeed .noRadius false) .lexical (fourP false) (fun _ => 0) (fun _ => 0) ∧
    ∃ cl' w', scClustering sampleCfg (builtinSpi (some lineData)) (fourOpts (.method .lexical) .closestSeed .noRadius false) (some lineObj) ((sampleWorld [5]).withFails fun i c => decide (i = 110) && c) =
        some ((.noMemory, some ⟨5, cl'⟩), w') ∧ cl'.numClusters = 1 ∧
      ∀ w2 : World, w'.live ≤ w2.live → ∃ w3, scClustering sampleCfg (builtinSpi (some lineData)) (fourOpts (.method .lexical) .closestSeed .noRadius false) (some ⟨5, cl'⟩) w2 =
        some ((.notImplemented, some ⟨5, cl'⟩), w3) := by
  have hc0 := four_call (.method .lexical) .closestSeed .noRadius false
  have hc : CallOk sampleCfg (fourOpts (.method .lexical) .closestSeed .noRadius false) lineObj (fourP false) (fun _ => 0) (fun _ => 0) ((sampleWorld [5]).withFails fun i c => decide (i = 110) && c) :=
    ⟨hc0.config, hc0.live, hc0.room, hc0.arrays, hc0.limits, fun i => by show (decide (i = 110) && false) = false; simp⟩
  have hacc : Accepts sampleCfg (builtinSpi (some lineData)).valid (builtinSpi (some lineData)).numPoints (fourOpts (.method .lexical) .closestSeed .noRadius false) lineObj.cl (fourP false) :=
    four_accepts false nofun nofun (Or.inl rfl) nofun
  refine ⟨hc, hacc, four_solvable false (Or.inl rfl), ?_⟩
  have hr : Intact sampleCfg lineObj ((sampleWorld [5]).withFails fun i c => decide (i = 110) && c) := ⟨hacc.initialized, hc.live, hc.room, fun h => absurd h (by decide)⟩
  obtain ⟨e, cl', w', h1, h2, h3⟩ := C53_sc_clustering lineSpi_ok hc nofun hr
  have hrun : (scClustering sampleCfg (builtinSpi (some lineData)) (fourOpts (.method .lexical) .closestSeed .noRadius false) (some lineObj)
      ((sampleWorld [5]).withFails fun i c => decide (i = 110) && c)).map (fun r => (r.1.1, r.1.2.map fun ob => ob.cl.numClusters)) = some (.noMemory, some 1) := by decide +kernel
  rw [h1] at hrun
  simp only [Option.map_some, Option.some.injEq, Prod.mk.injEq] at hrun
  obtain ⟨rfl, hk⟩ := hrun
  refine ⟨cl', w', h1, hk, fun w2 hl2 => ?_⟩
  exact C54_no_retry (ob := ⟨5, cl'⟩) (Multiset.mem_of_le (le_trans h3.live hl2) (Multiset.mem_add.2 (Or.inl (Multiset.mem_singleton.2 rfl)))) (by dsimp only; rw [h2]; exact hc.arrays) h3.initialized hacc.valid (by dsimp only; rw [h2]; exact hacc.points)
    (by dsimp only; rw [h2]; exact hacc.options) (by dsimp only; omega)

end Scc
