/-
Property C83: how `scc_hierarchical_clustering` divides a cluster depends only on the distances within the cluster. The specification is in Spec/HiClear.lean.
-/
import Verif.Proofs.HiClear
import Verif.Props.HiTree

set_option linter.unusedVariables false

namespace Scc

variable {F G : Type} [FloatOps F] [FloatOps G]

/-- What C65 says about each cluster that a call starts with. -/
theorem hiStart_tree {cfg : Cfg} {dist : Nat → Nat → F} {hi : HiEnv F} (hhi : hi.Ok) {spi : Spi F} {mayRefuse : Prop} {S : Nat} {ob : ClObj} (hd : DistLaws ob.cl.n dist)
    (hs : MetricOk spi ob.cl.n dist mayRefuse) (batch : Bool) {w : World} (hc : HiCallOk cfg S ob w) (hw : WellSpread S dist ob.cl) {X : List Nat} (hX : StartsWith ob.cl X) :
    HiOnSuccess cfg hi spi S batch ob w fun k b => ∃ ls, HiTree S batch dist X ls ∧ ∀ L ∈ ls, ∃ i, i < k ∧ L = members b ob.cl.n i := by
  by_cases he : ob.cl.numClusters = 0
  · obtain ⟨e, p, w', h1, h2⟩ := C65_from_empty hhi hd hs batch hc he (hw.1 he)
    refine ⟨e, p, w', h1, fun hok => ?_⟩
    obtain ⟨g1, cl, b, g2, g3, g4, g5, g6, g7⟩ := h2 hok
    refine ⟨g1, cl, b, g2, g3, g4, g5, g6, (List.range cl.numClusters).map (members b.buf ob.cl.n), ?_, fun L hL => ?_⟩
    · rcases hX with ⟨-, rfl⟩ | ⟨c, hc, -⟩
      · exact g7
      · omega
    · obtain ⟨i, hi, rfl⟩ := List.mem_map.1 hL
      exact ⟨i, List.mem_range.1 hi, rfl⟩
  · obtain ⟨e, p, w', h1, h2⟩ := C65_refine hhi hd hs batch hc he hw.2
    refine ⟨e, p, w', h1, fun hok => ?_⟩
    obtain ⟨g1, cl, b, g2, g3, g4, g5, g6, trees, g7, g8⟩ := h2 hok
    obtain ⟨c, hcl, rfl⟩ : ∃ c, c < ob.cl.numClusters ∧ X = members (ptrBuf ob.cl.label) ob.cl.n c := hX.resolve_left fun h => he h.1
    have hmem : ∀ {cs : List Nat} {oss : List (List (List Nat))}, List.Forall₂ (HiTree S batch dist) (cs.map (members (ptrBuf ob.cl.label) ob.cl.n)) oss → c ∈ cs →
        ∃ ls ∈ oss, HiTree S batch dist (members (ptrBuf ob.cl.label) ob.cl.n c) ls := by
      intro cs
      induction cs with
      | nil => intro _ _ h; cases h
      | cons c' cs ih =>
        intro oss h hm
        cases h with
        | cons k1 k2 =>
          rcases List.mem_cons.1 hm with rfl | hm
          · exact ⟨_, by simp, k1⟩
          · obtain ⟨ls, k3, k4⟩ := ih k2 hm
            exact ⟨ls, by simp [k3], k4⟩
    obtain ⟨ls, hls, ht⟩ := hmem g7 (by simpa using hcl)
    refine ⟨g1, cl, b, g2, g3, g4, g5, g6, ls, ht, fun L hL => ?_⟩
    have : L ∈ trees.flatten := List.mem_flatten.2 ⟨ls, hls, hL⟩
    rw [g8] at this
    obtain ⟨i, hi, rfl⟩ := List.mem_map.1 this
    exact ⟨i, List.mem_range.1 hi, rfl⟩

/-- Two points of a starting cluster get the same label iff they are in the same leaf. -/
theorem same_label_iff {S n k : Nat} {batch : Bool} {dist : Nat → Nat → F} {X : List Nat} {ls : List (List Nat)} {b : Buf Int} (h : HiTree S batch dist X ls)
    (hl : ∀ L ∈ ls, ∃ i, i < k ∧ L = members b n i) {u v : Nat} (hu : u ∈ X) (hv : v ∈ X) : b.get u = b.get v ↔ ∃ L ∈ ls, u ∈ L ∧ v ∈ L := by
  constructor
  · intro he
    obtain ⟨L, hL, huL⟩ := List.mem_flatten.1 (h.partition.mem_iff.2 hu)
    obtain ⟨M, hM, hvM⟩ := List.mem_flatten.1 (h.partition.mem_iff.2 hv)
    obtain ⟨i, -, rfl⟩ := hl L hL
    obtain ⟨j, -, rfl⟩ := hl M hM
    refine ⟨_, hL, huL, mem_members.2 ⟨(mem_members.1 hvM).1, ?_⟩⟩
    rw [← he]
    exact (mem_members.1 huL).2
  · rintro ⟨L, hL, huL, hvL⟩
    obtain ⟨i, -, rfl⟩ := hl L hL
    rw [(mem_members.1 huL).2, (mem_members.1 hvL).2]

/-- A call with a size constraint of less than two does not succeed. -/
theorem hiSize {cfg : Cfg} {dist : Nat → Nat → F} {hi : HiEnv F} (hhi : hi.Ok) {spi : Spi F} {mayRefuse : Prop} {S : Nat} {ob : ClObj} (hd : DistLaws ob.cl.n dist)
    (hs : MetricOk spi ob.cl.n dist mayRefuse) (batch : Bool) {w : World} (hc : HiCallOk cfg S ob w) {o : ClObj} {w1 : World}
    (hr : hierarchical cfg hi spi S batch (some ob) w = some ((.ok, some o), w1)) : 2 ≤ S := by
  obtain ⟨e, p, w2, h1, h2⟩ := hiOnSuccess (Q := fun _ _ => 2 ≤ S) hhi hd hs batch hc fun _ _ _ _ hacc _ _ => hacc.size_two
  rw [hr] at h1
  cases h1
  obtain ⟨-, -, -, -, -, -, -, -, h⟩ := h2 rfl
  exact h

/-- C83: two calls of `scc_hierarchical_clustering` start with clusters that have the same points, up to their numbers and their order, and distances that compare alike. Everything else may
be different: the other points and clusters, the numbers of points and clusters, the back end, the way to sort, the limits of the types, the memory. If no distances within the cluster are tied
and no part of the cluster has two pairs of farthest points, then both calls divide the cluster in the same way. -/
theorem C83_by_itself {cfg cfg' : Cfg} {dist : Nat → Nat → F} {dist' : Nat → Nat → G} {hi : HiEnv F} {hi' : HiEnv G} (hhi : hi.Ok) (hhi' : hi'.Ok) {spi : Spi F} {spi' : Spi G}
    {mayRefuse mayRefuse' : Prop} {S : Nat} {ob ob' : ClObj} (hd : DistLaws ob.cl.n dist) (hd' : DistLaws ob'.cl.n dist') (hs : MetricOk spi ob.cl.n dist mayRefuse)
    (hs' : MetricOk spi' ob'.cl.n dist' mayRefuse') (batch : Bool) {w w' : World} (hc : HiCallOk cfg S ob w) (hc' : HiCallOk cfg' S ob' w') (hw : WellSpread S dist ob.cl)
    (hw' : WellSpread S dist' ob'.cl) {X X' : List Nat} (hX : StartsWith ob.cl X) (hX' : StartsWith ob'.cl X') {ι : Nat → Nat} (hsame : RenamedCluster dist X dist' X' ι)
    (ht : NoTiedPairs dist X) (ho : OneFarthestPair S dist X) {o o' : ClObj} {w1 w1' : World}
    (hr : hierarchical cfg hi spi S batch (some ob) w = some ((.ok, some o), w1)) (hr' : hierarchical cfg' hi' spi' S batch (some ob') w' = some ((.ok, some o'), w1')) :
    ∀ u ∈ X, ∀ v ∈ X, (ptrBuf o.cl.label).get u = (ptrBuf o.cl.label).get v ↔ (ptrBuf o'.cl.label).get (ι u) = (ptrBuf o'.cl.label).get (ι v) := by
  obtain ⟨e, p, w2, h1, h2⟩ := hiStart_tree hhi hd hs batch hc hw hX
  obtain ⟨e', p', w2', h1', h2'⟩ := hiStart_tree hhi' hd' hs' batch hc' hw' hX'
  rw [hr] at h1
  rw [hr'] at h1'
  cases h1
  cases h1'
  obtain ⟨-, cl, b, hp, hn, hlab, -, -, ls, t1, t2⟩ := h2 rfl
  obtain ⟨-, cl', b', hp', hn', hlab', -, -, ls', t1', t2'⟩ := h2' rfl
  cases hp
  cases hp'
  have bnd : ∀ {cl : Clustering} {X : List Nat}, StartsWith cl X → X.Nodup ∧ ∀ x ∈ X, x < cl.n := by
    rintro cl X (⟨-, rfl⟩ | ⟨c, -, rfl⟩)
    · exact ⟨List.nodup_range, fun x hx => List.mem_range.1 hx⟩
    · exact ⟨nodup_members, fun x hx => (mem_members.1 hx).1⟩
  intro u hu v hv
  have hm : ∀ x ∈ X, ι x ∈ X' := fun x hx => hsame.points.mem_iff.2 (List.mem_map_of_mem hx)
  have hS := hiSize hhi hd hs batch hc hr
  show (ptrBuf cl.label).get u = (ptrBuf cl.label).get v ↔ (ptrBuf cl'.label).get (ι u) = (ptrBuf cl'.label).get (ι v)
  rw [hlab, hlab']
  exact (same_label_iff t1 t2 hu hv).trans ((hsame.trees hd t1 t1' (bnd hX).1 (bnd hX').1 (bnd hX).2 ht ho (by omega) hu hv).trans (same_label_iff t1' t2' (hm u hu) (hm v hv)).symm)

/-- C83 for points on a line, where the farthest points are the outermost ones: it is enough that no distances within the cluster are tied. -/
theorem C83_line {cfg cfg' : Cfg} {dist : Nat → Nat → F} {dist' : Nat → Nat → G} {hi : HiEnv F} {hi' : HiEnv G} (hhi : hi.Ok) (hhi' : hi'.Ok) {spi : Spi F} {spi' : Spi G}
    {mayRefuse mayRefuse' : Prop} {S : Nat} {ob ob' : ClObj} (hd : DistLaws ob.cl.n dist) (hd' : DistLaws ob'.cl.n dist') (hs : MetricOk spi ob.cl.n dist mayRefuse)
    (hs' : MetricOk spi' ob'.cl.n dist' mayRefuse') (batch : Bool) {w w' : World} (hc : HiCallOk cfg S ob w) (hc' : HiCallOk cfg' S ob' w') (hw : WellSpread S dist ob.cl)
    (hw' : WellSpread S dist' ob'.cl) {X X' : List Nat} (hX : StartsWith ob.cl X) (hX' : StartsWith ob'.cl X') {ι : Nat → Nat} (hsame : RenamedCluster dist X dist' X' ι)
    (ht : NoTiedPairs dist X) {pos : Nat → Int} (hl : OnLine dist X pos) {o o' : ClObj} {w1 w1' : World}
    (hr : hierarchical cfg hi spi S batch (some ob) w = some ((.ok, some o), w1)) (hr' : hierarchical cfg' hi' spi' S batch (some ob') w' = some ((.ok, some o'), w1')) :
    ∀ u ∈ X, ∀ v ∈ X, (ptrBuf o.cl.label).get u = (ptrBuf o.cl.label).get v ↔ (ptrBuf o'.cl.label).get (ι u) = (ptrBuf o'.cl.label).get (ι v) :=
  C83_by_itself hhi hhi' hd hd' hs hs' batch hc hc' hw hw' hX hX' hsame ht (hl.oneFarthest (hiSize hhi hd hs batch hc hr) ht) hr hr'

/-- What a call returns, from its summary. -/
theorem hiSummary_ok (ds : DataSet Int) (batch : Bool) (ob : ClObj) (w : World) (k : Nat) (l : List (Option Int))
    (h : hiSummary (hierarchical sampleCfg sampleEnv (builtinSpi (some ds)) 2 batch (some ob) w) = some (.ok, k, l)) :
    ∃ o w1, hierarchical sampleCfg sampleEnv (builtinSpi (some ds)) 2 batch (some ob) w = some ((.ok, some o), w1) ∧ ∀ i x, l[i]? = some x → (ptrBuf o.cl.label).get i = x := by
  match hr : hierarchical sampleCfg sampleEnv (builtinSpi (some ds)) 2 batch (some ob) w with
  | none => rw [hr] at h; cases h
  | some ((e, none), w1) => rw [hr] at h; cases h
  | some ((e, some o), w1) =>
    rw [hr] at h
    simp only [hiSummary, Option.bind_some, Option.map_some, Option.some.injEq, Prod.mk.injEq] at h
    obtain ⟨rfl, -, h⟩ := h
    refine ⟨o, w1, rfl, fun i x hi => ?_⟩
    rw [← h, List.getElem?_map, Option.map_eq_some_iff] at hi
    obtain ⟨j, hj, e⟩ := hi
    rw [List.getElem?_eq_some_iff] at hj
    obtain ⟨hlt, hj⟩ := hj
    rw [List.getElem_range] at hj
    rw [hj]; exact e

/-- Eight points on a line in two clusters; the second cluster is at 0, 1, 4, 10, 12 and 17. -/
def rulerData : DataSet Int := mkData 1 [0, 100, 1, 4, 101, 10, 12, 17]

def rulerLabels : Buf Int := Buf.ofList [1, 0, 1, 1, 0, 1, 1, 1]

/-- The points of the second cluster alone, in reverse order, twice as far apart. -/
def mirrorData : DataSet Int := mkData 1 [39, 29, 25, 13, 7, 5]

/-- The other name of each point. -/
def mirrorName (v : Nat) : Nat := [5, 9, 4, 3, 9, 2, 1, 0].getD v 9

theorem rulerData_complete : rulerData.Complete := mkData_complete (by decide)
theorem mirrorData_complete : mirrorData.Complete := mkData_complete (by decide)

theorem ruler_same : RenamedCluster rulerData.dist [0, 2, 3, 5, 6, 7] mirrorData.dist (List.range 6) mirrorName := ⟨by decide, by decide +kernel⟩

theorem ruler_noTies : NoTiedPairs rulerData.dist [0, 2, 3, 5, 6, 7] := by unfold NoTiedPairs SamePair; decide +kernel

theorem ruler_line : OnLine rulerData.dist [0, 2, 3, 5, 6, 7] (fun v => [0, 100, 1, 4, 101, 10, 12, 17].getD v 0) := by unfold OnLine; decide +kernel

theorem ruler_callOk : HiCallOk sampleCfg 2 (hiObj 8 2 (some ⟨6, rulerLabels⟩)) (sampleWorld [5, 6]) where
  config := sampleCfg_valid
  live := le_refl ({5, 6} : Multiset Nat)
  room := by
    intro lb h
    cases h
    decide
  twice := by decide
  points := by decide
  clusters := by decide
  labels := by
    intro _ lb h
    cases h
    exact ⟨by unfold ValidLabels Unassigned; decide, .inl (by decide)⟩

theorem ruler_spread : WellSpread 2 rulerData.dist (hiObj 8 2 (some ⟨6, rulerLabels⟩)).cl := ⟨fun h => absurd h (by decide), by show ∀ c, c < 2 → Spread 2 rulerData.dist (members rulerLabels 8 c); unfold Spread; decide +kernel⟩

theorem mirror_spread : WellSpread 2 mirrorData.dist (hiObj 6 0 none).cl := ⟨fun _ => by show Spread 2 mirrorData.dist (List.range 6); unfold Spread; decide +kernel, fun c hc => absurd hc (Nat.not_lt_zero c)⟩

theorem ruler_starts : StartsWith (hiObj 8 2 (some ⟨6, rulerLabels⟩)).cl [0, 2, 3, 5, 6, 7] := .inr ⟨1, by decide, by decide⟩

theorem mirror_starts : StartsWith (hiObj 6 0 none).cl (List.range 6) := .inl ⟨rfl, rfl⟩

/-- The hypotheses of C83 are met, with and without batches: both calls succeed, and divide the six points in the same way, though the labels are different. -/
example (batch : Bool) : ∃ o o' w1 w1', hierarchical sampleCfg sampleEnv (builtinSpi (some rulerData)) 2 batch (some (hiObj 8 2 (some ⟨6, rulerLabels⟩))) (sampleWorld [5, 6]) = some ((.ok, some o), w1) ∧
    hierarchical sampleCfg sampleEnv (builtinSpi (some mirrorData)) 2 batch (some (hiObj 6 0 none)) (sampleWorld [5]) = some ((.ok, some o'), w1') ∧
    ∀ u ∈ [0, 2, 3, 5, 6, 7], ∀ v ∈ [0, 2, 3, 5, 6, 7], (ptrBuf o.cl.label).get u = (ptrBuf o.cl.label).get v ↔ (ptrBuf o'.cl.label).get (mirrorName u) = (ptrBuf o'.cl.label).get (mirrorName v) := by
  obtain ⟨o, w1, h1⟩ : ∃ o w1, hierarchical sampleCfg sampleEnv (builtinSpi (some rulerData)) 2 batch (some (hiObj 8 2 (some ⟨6, rulerLabels⟩))) (sampleWorld [5, 6]) = some ((.ok, some o), w1) := by
    cases batch
    · obtain ⟨o, w1, h, -⟩ := hiSummary_ok rulerData false (hiObj 8 2 (some ⟨6, rulerLabels⟩)) (sampleWorld [5, 6]) 3 [some 0, some 2, some 0, some 0, some 2, some 1, some 1, some 1] (by decide +kernel)
      exact ⟨o, w1, h⟩
    · obtain ⟨o, w1, h, -⟩ := hiSummary_ok rulerData true (hiObj 8 2 (some ⟨6, rulerLabels⟩)) (sampleWorld [5, 6]) 4 [some 0, some 3, some 0, some 1, some 3, some 1, some 2, some 2] (by decide +kernel)
      exact ⟨o, w1, h⟩
  obtain ⟨o', w1', h1'⟩ : ∃ o w1, hierarchical sampleCfg sampleEnv (builtinSpi (some mirrorData)) 2 batch (some (hiObj 6 0 none)) (sampleWorld [5]) = some ((.ok, some o), w1) := by
    cases batch
    · obtain ⟨o, w1, h, -⟩ := hiSummary_ok mirrorData false (hiObj 6 0 none) (sampleWorld [5]) 2 [some 1, some 1, some 1, some 0, some 0, some 0] (by decide +kernel)
      exact ⟨o, w1, h⟩
    · obtain ⟨o, w1, h, -⟩ := hiSummary_ok mirrorData true (hiObj 6 0 none) (sampleWorld [5]) 3 [some 2, some 2, some 1, some 1, some 0, some 0] (by decide +kernel)
      exact ⟨o, w1, h⟩
  exact ⟨o, o', w1, w1', h1, h1', C83_line sampleEnv_ok sampleEnv_ok (intMetric rulerData_complete).laws (intMetric mirrorData_complete).laws (builtinMetric (intMetric rulerData_complete))
    (builtinMetric (intMetric mirrorData_complete)) batch ruler_callOk (hiCallOk_sample (by decide)) ruler_spread mirror_spread ruler_starts mirror_starts ruler_same ruler_noTies ruler_line h1 h1'⟩

/-- Five points on a line, at equal distances, and the same points in reverse order. -/
def evenData : DataSet Int := mkData 1 [0, 1, 2, 3, 4]

def evenMirror : DataSet Int := mkData 1 [4, 3, 2, 1, 0]

theorem evenData_complete : evenData.Complete := mkData_complete (by decide)
theorem evenMirror_complete : evenMirror.Complete := mkData_complete (by decide)

/-- With ties C83 is false: which half the point in the middle goes to depends on the order of the points. Points 0 and 2 are in one cluster in the first call, but not in the second call, where their
numbers are 4 and 2. -/
theorem C83_fails_ties : HiCallOk sampleCfg 2 (hiObj 5 0 none) (sampleWorld [5]) ∧ WellSpread 2 evenData.dist (hiObj 5 0 none).cl ∧ WellSpread 2 evenMirror.dist (hiObj 5 0 none).cl ∧
    RenamedCluster evenData.dist (List.range 5) evenMirror.dist (List.range 5) (fun v => 4 - v) ∧ OnLine evenData.dist (List.range 5) (fun v => v) ∧
    ∃ o o' w1 w1', hierarchical sampleCfg sampleEnv (builtinSpi (some evenData)) 2 false (some (hiObj 5 0 none)) (sampleWorld [5]) = some ((.ok, some o), w1) ∧
      hierarchical sampleCfg sampleEnv (builtinSpi (some evenMirror)) 2 false (some (hiObj 5 0 none)) (sampleWorld [5]) = some ((.ok, some o'), w1') ∧
      ¬ ((ptrBuf o.cl.label).get 0 = (ptrBuf o.cl.label).get 2 ↔ (ptrBuf o'.cl.label).get (4 - 0) = (ptrBuf o'.cl.label).get (4 - 2)) := by
  have w1 : WellSpread 2 evenData.dist (hiObj 5 0 none).cl := ⟨fun _ => by show Spread 2 evenData.dist (List.range 5); unfold Spread; decide +kernel, fun c hc => absurd hc (Nat.not_lt_zero c)⟩
  have w2 : WellSpread 2 evenMirror.dist (hiObj 5 0 none).cl := ⟨fun _ => by show Spread 2 evenMirror.dist (List.range 5); unfold Spread; decide +kernel, fun c hc => absurd hc (Nat.not_lt_zero c)⟩
  obtain ⟨o, v1, h1, g1⟩ := hiSummary_ok evenData false (hiObj 5 0 none) (sampleWorld [5]) 2 [some 1, some 1, some 1, some 0, some 0] (by decide +kernel)
  obtain ⟨o', v2, h2, g2⟩ := hiSummary_ok evenMirror false (hiObj 5 0 none) (sampleWorld [5]) 2 [some 1, some 1, some 1, some 0, some 0] (by decide +kernel)
  refine ⟨hiCallOk_sample (by decide), w1, w2, ⟨by decide, by decide +kernel⟩, by unfold OnLine; decide +kernel, o, o', v1, v2, h1, h2, ?_⟩
  rw [g1 0 (some 1) rfl, g1 2 (some 1) rfl, g2 (4 - 0) (some 0) rfl, g2 (4 - 2) (some 1) rfl]
  decide

/-- Six points in the plane. Two pairs of points are farthest from each other: the first and the third point, and the second and the fourth. -/
def crossData : DataSet Int := mkData 2 [30, -900, -1000, 0, 0, 910, 1000, 10, -300, 800, -310, -790]

/-- The same points in another order. -/
def crossOther : DataSet Int := mkData 2 [-1000, 0, 30, -900, 1000, 10, 0, 910, -310, -790, -300, 800]

theorem crossData_complete : crossData.Complete := mkData_complete (by decide)
theorem crossOther_complete : crossOther.Complete := mkData_complete (by decide)

/-- With two pairs of farthest points C83 is false, also without ties: which pair is found depends on the order of the points, as the search starts from every other point. The points -1000 | 0 and
0 | 910 are in one cluster in the first call but not in the second. -/
theorem C83_fails_pairs : HiCallOk sampleCfg 2 (hiObj 6 0 none) (sampleWorld [5]) ∧ WellSpread 2 crossData.dist (hiObj 6 0 none).cl ∧ WellSpread 2 crossOther.dist (hiObj 6 0 none).cl ∧
    RenamedCluster crossData.dist (List.range 6) crossOther.dist (List.range 6) (fun v => [1, 0, 3, 2, 5, 4].getD v 0) ∧ NoTiedPairs crossData.dist (List.range 6) ∧
    ∃ o o' w1 w1', hierarchical sampleCfg sampleEnv (builtinSpi (some crossData)) 2 false (some (hiObj 6 0 none)) (sampleWorld [5]) = some ((.ok, some o), w1) ∧
      hierarchical sampleCfg sampleEnv (builtinSpi (some crossOther)) 2 false (some (hiObj 6 0 none)) (sampleWorld [5]) = some ((.ok, some o'), w1') ∧
      ¬ ((ptrBuf o.cl.label).get 1 = (ptrBuf o.cl.label).get 2 ↔ (ptrBuf o'.cl.label).get 0 = (ptrBuf o'.cl.label).get 3) := by
  have w1 : WellSpread 2 crossData.dist (hiObj 6 0 none).cl := ⟨fun _ => by show Spread 2 crossData.dist (List.range 6); unfold Spread; decide +kernel, fun c hc => absurd hc (Nat.not_lt_zero c)⟩
  have w2 : WellSpread 2 crossOther.dist (hiObj 6 0 none).cl := ⟨fun _ => by show Spread 2 crossOther.dist (List.range 6); unfold Spread; decide +kernel, fun c hc => absurd hc (Nat.not_lt_zero c)⟩
  obtain ⟨o, v1, h1, g1⟩ := hiSummary_ok crossData false (hiObj 6 0 none) (sampleWorld [5]) 2 [some 1, some 0, some 0, some 1, some 0, some 1] (by decide +kernel)
  obtain ⟨o', v2, h2, g2⟩ := hiSummary_ok crossOther false (hiObj 6 0 none) (sampleWorld [5]) 2 [some 1, some 0, some 0, some 0, some 1, some 1] (by decide +kernel)
  refine ⟨hiCallOk_sample (by decide), w1, w2, ⟨by decide, by decide +kernel⟩, by unfold NoTiedPairs SamePair; decide +kernel, o, o', v1, v2, h1, h2, ?_⟩
  rw [g1 1 (some 0) rfl, g1 2 (some 0) rfl, g2 0 (some 1) rfl, g2 3 (some 0) rfl]
  decide

end Scc
