/-
Properties of `scc_hierarchical_clustering`: C15, C16 and C17.

All theorems are about one call for the clustering object `ob` in the state `w` of memory. `HiCallOk` (Spec/Hierarchical.lean) lists the preconditions of a call. `MetricOk spi n dist
mayRefuse` (Spec/Metric.lean) says that the functions of the back end that return distances and farthest points work as documented, `DistLaws` that distances are numbers, and `HiEnv.Ok`
that sorting works. The initial capacity of the stack is any number (`HiEnv.logCap`), and so is the number of marker values (`Cfg.fast16Max`, at least 65535 by the C standard).
-/
import Verif.Proofs.HiFacts
import Verif.Proofs.HiBuiltin
import Verif.Props.Clustering

set_option linter.unusedVariables false

namespace Scc

variable {F : Type} [FloatOps F]

/-- The call has no undefined behaviour. If it returns "ok", the clustering object is initialized and has a label array (both are live), and the number of clusters and
the labels satisfy `Q`. -/
def HiOnSuccess (cfg : Cfg) (hi : HiEnv F) (spi : Spi F) (S : Nat) (batch : Bool) (ob : ClObj) (w : World) (Q : Nat → Buf Int → Prop) : Prop :=
  ∃ e p w', hierarchical cfg hi spi S batch (some ob) w = some ((e, p), w') ∧
    (e = .ok → w'.fails = w.fails ∧ ∃ cl b, p = some ⟨ob.id, cl⟩ ∧ cl.n = ob.cl.n ∧ cl.label = some b ∧ {ob.id} + {b.id} ≤ w'.live ∧ cl.isInitialized cfg = true ∧
      Q cl.numClusters b.buf)

theorem hiOnSuccess {cfg : Cfg} {dist : Nat → Nat → F} {hi : HiEnv F} (hhi : hi.Ok) {spi : Spi F} {mayRefuse : Prop} {S : Nat} {ob : ClObj} (hd : DistLaws ob.cl.n dist)
    (hs : MetricOk spi ob.cl.n dist mayRefuse) (batch : Bool) {w : World} (hc : HiCallOk cfg S ob w) {Q : Nat → Buf Int → Prop}
    (h : ∀ labels0 l k done, HiAccepts cfg spi.valid spi.numPoints S ob.cl → (∀ lb, ob.cl.label = some lb → labels0 = lb.buf) →
      HiResult cfg ob.cl.n S batch dist (startClusters ob.cl) labels0 l k done → Q k l) : HiOnSuccess cfg hi spi S batch ob w Q := by
  obtain ⟨⟨e, p⟩, w', h1, hf, h2⟩ := hierarchical_spec hhi hd hs batch hc
  refine ⟨e, p, w', h1, ?_⟩
  rintro rfl
  rcases h2 with ⟨h2, -⟩ | ⟨hacc, M, cl', hlive, hM, hp, h2⟩
  · rcases h2 with ⟨h2, -⟩ | ⟨h2, -⟩ <;> cases h2
  · dsimp only at hp
    cases h2 with
    | done _ _ labels0 id l cs old result labelled live err =>
      refine ⟨hf, cl', ⟨id, l⟩, hp, ?_, ?_, ?_, labelled.initialized hacc.initialized result.cap, h _ _ _ _ hacc old result⟩
      · rw [labelled.eq]
      · rw [labelled.eq]
      · rw [live]; exact two_live hc.live hlive
    | early _ _ _ cause err unt live => exact absurd rfl cause.ne_ok
    | late _ _ _ id l cause err labelled kept live => exact absurd rfl cause.ne_ok

/-- C15, without the case of many coincident points (for which it is false, see `C15_fails`): after a successful call on an empty clustering, every point has a label, and every cluster
has at least `S` and fewer than `2 * S` points. Missing: data sets in which `2 * S` or more points coincide. -/
theorem C15_partial {cfg : Cfg} {dist : Nat → Nat → F} {hi : HiEnv F} (hhi : hi.Ok) {spi : Spi F} {mayRefuse : Prop} {S : Nat} {ob : ClObj} (hd : DistLaws ob.cl.n dist)
    (hs : MetricOk spi ob.cl.n dist mayRefuse) (batch : Bool) {w : World} (hc : HiCallOk cfg S ob w) (he : ob.cl.numClusters = 0) (hsp : Spread S dist (List.range ob.cl.n)) :
    HiOnSuccess cfg hi spi S batch ob w fun k b => HiPartition S ob.cl.n k b := by
  refine hiOnSuccess hhi hd hs batch hc fun labels0 l k done hacc _ h => ?_
  unfold startClusters at h
  rw [if_pos he] at h
  exact h.partition hc.config hacc.size_le hsp

/-- What a call returns: error code, number of clusters and labels. -/
def hiSummary (r : Option ((ErrorCode × Option ClObj) × World)) : Option (ErrorCode × Nat × List (Option Int)) :=
  r.bind fun r => r.1.2.map fun o => (r.1.1, o.cl.numClusters, (List.range o.cl.n).map (ptrBuf o.cl.label).get)

theorem sampleEnv_ok : sampleEnv.Ok where
  sorts l _ := by
    refine ⟨(sampleEnv_sorts l).1, (sampleEnv_sorts l).2.imp fun {a b} h => ?_⟩
    show decide (b.2 < a.2) = false
    rw [decide_eq_false_iff_not]; omega
  log c n := by
    show c * min 64 (Nat.log2 n) ≤ 64 * c
    rw [Nat.mul_comm 64]
    exact Nat.mul_le_mul_left _ (Nat.min_le_left _ _)

theorem hiCallOk_sample {n : Nat} (h : n ≤ 1000) : HiCallOk sampleCfg 2 (hiObj n 0 none) (sampleWorld [5]) where
  config := sampleCfg_valid
  live := by simp [hiObj, ptrOwn, sampleWorld]
  room := nofun
  twice := by decide
  points := by show 2 * n ≤ _; refine le_trans (Nat.mul_le_mul_left 2 h) ?_; decide
  clusters := by show 0 + 1000 < 2 ^ 64; decide
  labels := fun h => absurd rfl h

/-- Six points on a line: the hypotheses hold, and there are three clusters. -/
example : HiEnv.Ok sampleEnv ∧ Nonempty (MetricOk (builtinSpi (some lineData)) 6 lineData.dist False) ∧ DistLaws 6 lineData.dist ∧
    HiCallOk sampleCfg 2 (hiObj 6 0 none) (sampleWorld [5]) ∧ Spread 2 lineData.dist (List.range 6) ∧
    hiSummary (hierarchical sampleCfg sampleEnv (builtinSpi (some lineData)) 2 false (some (hiObj 6 0 none)) (sampleWorld [5])) =
      some (.ok, 3, [some 2, some 2, some 1, some 1, some 0, some 0]) :=
  ⟨sampleEnv_ok, ⟨builtinMetric (intMetric lineData_complete)⟩, (intMetric lineData_complete).laws, hiCallOk_sample (by decide), by unfold Spread; decide +kernel, by decide +kernel⟩

/-- Four copies of one point. -/
def copiesData : DataSet Int := mkData 1 [3, 3, 3, 3]

theorem copiesData_complete : copiesData.Complete := mkData_complete (by decide)

/-- C15 is false when points coincide: with four copies of a point and size constraint 2, the call returns "ok", but the first cluster has only one point, and the last
point has no label (the array is not initialized there). -/
theorem C15_fails : HiCallOk sampleCfg 2 (hiObj 4 0 none) (sampleWorld [5]) ∧
    hiSummary (hierarchical sampleCfg sampleEnv (builtinSpi (some copiesData)) 2 false (some (hiObj 4 0 none)) (sampleWorld [5])) = some (.ok, 2, [some 1, some 1, some 0, none]) ∧
    ¬ HiOnSuccess sampleCfg sampleEnv (builtinSpi (some copiesData)) 2 false (hiObj 4 0 none) (sampleWorld [5]) fun k b => HiPartition 2 4 k b := by
  have hrun : hiSummary (hierarchical sampleCfg sampleEnv (builtinSpi (some copiesData)) 2 false (some (hiObj 4 0 none)) (sampleWorld [5])) = some (.ok, 2, [some 1, some 1, some 0, none]) := by decide +kernel
  refine ⟨hiCallOk_sample (by decide), hrun, ?_⟩
  rintro ⟨e, p, w', h1, h2⟩
  rw [h1] at hrun
  cases p with
  | none => cases hrun
  | some o =>
    simp only [hiSummary, Option.bind_some, Option.map_some, Option.some.injEq, Prod.mk.injEq] at hrun
    obtain ⟨rfl, hk, hl⟩ := hrun
    obtain ⟨-, cl, b, hp, hn, hlab, -, -, hq, -⟩ := h2 rfl
    simp only [Option.some.injEq] at hp
    subst hp
    dsimp only at hl hn hlab
    rw [hlab, hn] at hl
    obtain ⟨c, -, hg⟩ := hq 3 (by decide)
    have : ([some 1, some 1, some 0, none] : List (Option Int))[3]? = some (b.buf.get 3) := by rw [← hl]; rfl
    rw [hg] at this
    simp at this

/-- C16, without the case of many coincident points in a cluster (for which points can be lost as in `C15_fails`): the new labels refine the old ones.
Missing: clusters in which `2 * S` or more points coincide; inputs whose first cluster is the (only) largest one and has at least `2 * S` points (`FirstFits` in `HiCallOk`), for which the
call has undefined behaviour (`C17_fails`). -/
theorem C16_partial {cfg : Cfg} {dist : Nat → Nat → F} {hi : HiEnv F} (hhi : hi.Ok) {spi : Spi F} {mayRefuse : Prop} {S : Nat} {ob : ClObj} (hd : DistLaws ob.cl.n dist)
    (hs : MetricOk spi ob.cl.n dist mayRefuse) (batch : Bool) {w : World} (hc : HiCallOk cfg S ob w) (hne : ob.cl.numClusters ≠ 0)
    (hsp : ∀ c, c < ob.cl.numClusters → Spread S dist (members (ptrBuf ob.cl.label) ob.cl.n c)) :
    HiOnSuccess cfg hi spi S batch ob w fun k b => HiRefines cfg S ob.cl.n ob.cl.numClusters (ptrBuf ob.cl.label) k b := by
  refine hiOnSuccess hhi hd hs batch hc fun labels0 l k done hacc hold h => ?_
  unfold startClusters at h
  rw [if_neg hne] at h
  have hinit := isInitialized_iff.1 hacc.initialized
  obtain ⟨lb, hlb⟩ := Option.ne_none_iff_exists'.1 (hinit.2.2.2.2 (by omega))
  have := hold lb hlb
  subst this
  rw [hlb] at h hsp ⊢
  exact h.refines hc.config hinit.2.2.2.1 (hc.labels hne lb hlb).1 hsp

/-- Nine points on a line. -/
def nineData : DataSet Int := mkData 1 [0, 1, 3, 7, 8, 20, 21, 30, 31]

theorem nineData_complete : nineData.Complete := mkData_complete (by decide)

/-- A clustering of the nine points: clusters {0, 1}, {2, 3, 5, 6, 7} and {4}, and point 8 is not assigned. -/
def nineLabels : Buf Int := Buf.ofList [0, 0, 1, 1, 2, 1, 1, 1, sampleCfg.na]

theorem hiCallOk_nine : HiCallOk sampleCfg 2 (hiObj 9 3 (some ⟨6, nineLabels⟩)) (sampleWorld [5, 6]) where
  config := sampleCfg_valid
  live := le_refl ({5, 6} : Multiset Nat)
  room := by
    rintro lb h
    cases h
    show 9 ≤ nineLabels.len
    decide
  twice := by decide
  points := by decide
  clusters := by decide
  labels := by
    rintro - lb h
    cases h
    refine ⟨?_, Or.inl (by decide)⟩
    intro v hv
    have : ∀ v, v < 9 → nineLabels.get v = some sampleCfg.na ∨ ∃ c, c < 3 ∧ nineLabels.get v = some ((c : Nat) : Int) := by decide +kernel
    exact this v hv

/-- The large cluster is broken up; the others are kept, also the one that is smaller than the size constraint. -/
example : HiCallOk sampleCfg 2 (hiObj 9 3 (some ⟨6, nineLabels⟩)) (sampleWorld [5, 6]) ∧ DistLaws 9 nineData.dist ∧ (∀ c, c < 3 → Spread 2 nineData.dist (members nineLabels 9 c)) ∧
    hiSummary (hierarchical sampleCfg sampleEnv (builtinSpi (some nineData)) 2 false (some (hiObj 9 3 (some ⟨6, nineLabels⟩))) (sampleWorld [5, 6])) =
      some (.ok, 4, [some 3, some 3, some 1, some 1, some 0, some 2, some 2, some 2, some sampleCfg.na]) :=
  ⟨hiCallOk_nine, (intMetric nineData_complete).laws, by unfold Spread; decide +kernel, by decide +kernel⟩

/-- A clustering of eight points: clusters {0, 1}, {2, 3} and {4, 5, 6, 7}. -/
def eightLabels : Buf Int := Buf.ofList [0, 0, 1, 1, 2, 2, 2, 2]

/-- Eight points on a line, the last six of which coincide. -/
def eightData : DataSet Int := mkData 1 [0, 1, 3, 3, 3, 3, 3, 3]

theorem hiCallOk_eight : HiCallOk sampleCfg 2 (hiObj 8 3 (some ⟨6, eightLabels⟩)) (sampleWorld [5, 6]) where
  config := sampleCfg_valid
  live := le_refl ({5, 6} : Multiset Nat)
  room := by
    rintro lb h
    cases h
    show 8 ≤ eightLabels.len
    decide
  twice := by decide
  points := by decide
  clusters := by decide
  labels := by
    rintro - lb h
    cases h
    refine ⟨?_, Or.inl (by decide)⟩
    intro v hv
    have : ∀ v, v < 8 → eightLabels.get v = some sampleCfg.na ∨ ∃ c, c < 3 ∧ eightLabels.get v = some ((c : Nat) : Int) := by decide +kernel
    exact this v hv

/-- C16 is false when points coincide: a point of the third cluster is lost and keeps its old label 2, which is the new label of the second cluster. Afterwards point 2 of the second and
point 4 of the third cluster have the same label. -/
theorem C16_fails : HiCallOk sampleCfg 2 (hiObj 8 3 (some ⟨6, eightLabels⟩)) (sampleWorld [5, 6]) ∧
    hiSummary (hierarchical sampleCfg sampleEnv (builtinSpi (some eightData)) 2 false (some (hiObj 8 3 (some ⟨6, eightLabels⟩))) (sampleWorld [5, 6])) =
      some (.ok, 4, [some 3, some 3, some 2, some 2, some 2, some 0, some 1, some 1]) ∧
    ¬ HiOnSuccess sampleCfg sampleEnv (builtinSpi (some eightData)) 2 false (hiObj 8 3 (some ⟨6, eightLabels⟩)) (sampleWorld [5, 6]) fun k b => HiRefines sampleCfg 2 8 3 eightLabels k b := by
  have hrun : hiSummary (hierarchical sampleCfg sampleEnv (builtinSpi (some eightData)) 2 false (some (hiObj 8 3 (some ⟨6, eightLabels⟩))) (sampleWorld [5, 6])) =
      some (.ok, 4, [some 3, some 3, some 2, some 2, some 2, some 0, some 1, some 1]) := by decide +kernel
  refine ⟨hiCallOk_eight, hrun, ?_⟩
  rintro ⟨e, p, w', h1, h2⟩
  rw [h1] at hrun
  cases p with
  | none => cases hrun
  | some o =>
    simp only [hiSummary, Option.bind_some, Option.map_some, Option.some.injEq, Prod.mk.injEq] at hrun
    obtain ⟨rfl, hk, hl⟩ := hrun
    obtain ⟨-, cl, b, hp, hn, hlab, -, -, hq⟩ := h2 rfl
    simp only [Option.some.injEq] at hp
    subst hp
    dsimp only at hl hn hlab hk
    rw [hlab, hn] at hl
    have g2 : ([some 3, some 3, some 2, some 2, some 2, some 0, some 1, some 1] : List (Option Int))[2]? = some (b.buf.get 2) := by rw [← hl]; rfl
    have g4 : ([some 3, some 3, some 2, some 2, some 2, some 0, some 1, some 1] : List (Option Int))[4]? = some (b.buf.get 4) := by rw [← hl]; rfl
    obtain ⟨c, -, h3, h4⟩ := hq.finer 2 4 2 (by decide) (by decide) (by rw [hk]; decide) (by simpa using g2.symm) (by simpa using g4.symm)
    have e3 : eightLabels.get 2 = some 1 := by decide
    have e4 : eightLabels.get 4 = some 2 := by decide
    rw [e3] at h3
    rw [e4] at h4
    rw [← h3] at h4
    simp at h4

/-- C17, without the inputs for which it is false (see `C17_fails`): for all inputs that satisfy the preconditions, all initial capacities of the stack, all widths of the marker and all
failures of allocations and of the back end, the call returns and has no undefined behaviour. No memory is leaked: only the label array is allocated if there was none, and an existing one
stays where it is. A call that does not return "ok" has a reason and records the error, and the number of clusters does not change.
Missing: inputs whose first cluster is the (only) largest one and has at least `2 * S` points (`FirstFits` in `HiCallOk`), for which the call has undefined behaviour. -/
theorem C17_partial {cfg : Cfg} {dist : Nat → Nat → F} {hi : HiEnv F} (hhi : hi.Ok) {spi : Spi F} {mayRefuse : Prop} {S : Nat} {ob : ClObj} (hd : DistLaws ob.cl.n dist)
    (hs : MetricOk spi ob.cl.n dist mayRefuse) (batch : Bool) {w : World} (hc : HiCallOk cfg S ob w) :
    ∃ e cl w', hierarchical cfg hi spi S batch (some ob) w = some ((e, some ⟨ob.id, cl⟩), w') ∧ cl.n = ob.cl.n ∧ cl.version = ob.cl.version ∧
      w'.live + ptrOwn ob.cl.label = w.live + ptrOwn cl.label ∧ (∀ lb, ob.cl.label = some lb → ∃ b, cl.label = some ⟨lb.id, b⟩ ∧ b.len = lb.buf.len) ∧
      (e ≠ .ok → w'.err.code = e ∧ cl.numClusters = ob.cl.numClusters) ∧
      (e = .ok ∨ HiRejects cfg spi.valid spi.numPoints S ob.cl e ∧ cl = ob.cl ∨
        e = .tooLarge ∧ HiTooBig cfg ob.cl.n ob.cl.numClusters ∨ e = .noMemory ∧ ¬ w.NoFail ∨ e = .distSearch ∧ (¬ w.NoFail ∨ mayRefuse)) := by
  obtain ⟨⟨e, p⟩, w', h1, hf, h2⟩ := hierarchical_spec hhi hd hs batch hc
  rcases h2 with ⟨h2, h3, h4, h5⟩ | ⟨hacc, M, cl', hlive, hM, hp, h2⟩
  · dsimp only at h2 h3 h5
    subst h5
    exact ⟨e, ob.cl, w', h1, rfl, rfl, by rw [h4], fun lb h => ⟨lb.buf, h, rfl⟩, fun _ => ⟨h3, rfl⟩, Or.inr (Or.inl ⟨h2, rfl⟩)⟩
  · dsimp only at hp h2
    subst hp
    refine ⟨e, cl', w', h1, ?_⟩
    cases h2 with
    | done _ _ labels0 id l cs old result labelled live err =>
      have e1 : cl'.label = some ⟨id, l⟩ := by rw [labelled.eq]
      refine ⟨by rw [labelled.eq], by rw [labelled.eq], ?_, fun lb h => ?_, fun h => absurd rfl h, Or.inl rfl⟩
      · rw [live, hlive, e1]; simp only [ptrOwn]; abel
      · obtain ⟨rfl, h6⟩ := labelled.old lb h
        exact ⟨l, e1, h6⟩
    | early _ _ _ cause err unt live =>
      have e1 : cl'.label = ob.cl.label := by rw [unt.flag]
      refine ⟨by rw [unt.flag], by rw [unt.flag], ?_, fun lb h => ⟨lb.buf, by rw [e1, h], rfl⟩, fun _ => ⟨err, by rw [unt.flag]⟩, Or.inr (Or.inr cause)⟩
      rw [live, hlive, e1]
    | late _ _ _ id l cause err labelled kept live =>
      have e1 : cl'.label = some ⟨id, l⟩ := by rw [labelled.eq]
      refine ⟨by rw [labelled.eq], by rw [labelled.eq], ?_, fun lb h => ?_, fun _ => ⟨err, by rw [labelled.eq]⟩, Or.inr (Or.inr cause)⟩
      · rw [live, hlive, e1]; simp only [ptrOwn]; abel
      · obtain ⟨rfl, h6⟩ := labelled.old lb h
        exact ⟨l, e1, h6⟩

/-- The hypotheses hold for the nine points above, whichever allocations fail. -/
example (fails : Nat → Bool → Bool) : HiCallOk sampleCfg 2 (hiObj 9 3 (some ⟨6, nineLabels⟩)) { sampleWorld [5, 6] with fails := fails } ∧
    Nonempty (MetricOk (builtinSpi (some nineData)) 9 nineData.dist False) :=
  ⟨⟨hiCallOk_nine.config, hiCallOk_nine.live, hiCallOk_nine.room, hiCallOk_nine.twice, hiCallOk_nine.points, hiCallOk_nine.clusters, hiCallOk_nine.labels⟩,
    ⟨builtinMetric (intMetric nineData_complete)⟩⟩

/-- C17: when nothing fails and sizes are within limits, a call that is not rejected returns "ok". -/
theorem C17_succeeds {cfg : Cfg} {dist : Nat → Nat → F} {hi : HiEnv F} (hhi : hi.Ok) {spi : Spi F} {S : Nat} {ob : ClObj} (hd : DistLaws ob.cl.n dist)
    (hs : MetricOk spi ob.cl.n dist False) (batch : Bool) {w : World} (hc : HiCallOk cfg S ob w) (hacc : HiAccepts cfg spi.valid spi.numPoints S ob.cl) (hw : w.NoFail)
    (hbig : ¬ HiTooBig cfg ob.cl.n ob.cl.numClusters) : ∃ p w', hierarchical cfg hi spi S batch (some ob) w = some ((.ok, p), w') := by
  obtain ⟨e, cl, w', h1, -, -, -, -, -, h2⟩ := C17_partial hhi hd hs batch hc
  have he : e = .ok := by
    rcases h2 with h2 | ⟨h2, -⟩ | ⟨-, h2⟩ | ⟨-, h2⟩ | ⟨-, h2 | h2⟩
    · exact h2
    · rcases h2 with ⟨-, h2 | h2 | h2 | h2⟩ | ⟨-, -, -, -, -, h2⟩
      · rw [hacc.initialized] at h2; cases h2
      · rw [hacc.valid] at h2; cases h2
      · exact absurd hacc.points h2
      · have := hacc.size_two; omega
      · have := hacc.size_le; omega
    · exact absurd h2 hbig
    · exact absurd hw h2
    · exact absurd hw h2
    · exact h2.elim
  subst he
  exact ⟨_, w', h1⟩

example : HiAccepts sampleCfg (builtinSpi (some lineData)).valid (builtinSpi (some lineData)).numPoints 2 (hiObj 6 0 none).cl ∧ (sampleWorld [5]).NoFail ∧ ¬ HiTooBig sampleCfg 6 0 :=
  ⟨⟨by decide, by decide, by decide, by decide, by decide⟩, by simp [World.NoFail, sampleWorld], by unfold HiTooBig; decide⟩

/-- A clustering in which all six points are in one cluster. -/
def oneCluster : ClObj := hiObj 6 1 (some ⟨6, Buf.fill 6 0⟩)

/-- C17 is false for the refinement of a single cluster with at least `2 * S` points: the code does not count the members of the first cluster when it allocates memory
for edges, and writes beyond the end of the array. All preconditions but `FirstFits` hold. -/
theorem C17_fails : hierarchical sampleCfg sampleEnv (builtinSpi (some lineData)) 2 false (some oneCluster) (sampleWorld [5, 6]) = none ∧
    ValidLabels sampleCfg (Buf.fill 6 0) 6 1 ∧ ¬ FirstFits (Buf.fill 6 0) 6 1 2 ∧ HiAccepts sampleCfg (builtinSpi (some lineData)).valid (builtinSpi (some lineData)).numPoints 2 oneCluster.cl := by
  refine ⟨?_, ?_, ?_, ⟨by decide, by decide, by decide, by decide, by decide⟩⟩
  · have h : (hierarchical sampleCfg sampleEnv (builtinSpi (some lineData)) 2 false (some oneCluster) (sampleWorld [5, 6])).isNone = true := by decide +kernel
    exact Option.isNone_iff_eq_none.1 h
  · intro v hv
    exact Or.inr ⟨0, by decide, by rw [Buf.get_fill, if_pos hv]; rfl⟩
  · rintro (h | ⟨c, h1, h2, -⟩)
    · exact absurd h (by decide)
    · omega

end Scc
