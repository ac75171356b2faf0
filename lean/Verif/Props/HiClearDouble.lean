/-
C83 with the arithmetic of `double`: the Euclidean distances in the cluster are distinct without rounding, by a factor of more than `1 + 2^-31`. The specification is in Spec/HiClearDouble.lean.
-/
import Verif.Proofs.HiClearDouble
import Verif.Props.HiClear
import Verif.Props.AfterFailure

namespace Scc

theorem DataSet.CopiesBelow.wellSpread {ds : DataSet Dbl} (hm : ds.Moderate) {S : Nat} (h : ds.CopiesBelow (2 * S)) {cl : Clustering} (hn : cl.n = ds.n) : WellSpread S ds.dist cl :=
  ⟨fun _ => spread_of_copies hm h (fun x hx => by rw [← hn]; exact List.mem_range.1 hx) List.nodup_range,
    fun c _ => spread_of_copies hm h (fun x hx => by rw [← hn]; exact (mem_members.1 hx).1) nodup_members⟩

theorem StartsWith.bound {cl : Clustering} {X : List Nat} (h : StartsWith cl X) : ∀ x ∈ X, x < cl.n := by
  rcases h with ⟨-, rfl⟩ | ⟨c, -, rfl⟩
  · exact fun x hx => List.mem_range.1 hx
  · exact fun x hx => (mem_members.1 hx).1

/-- C83 for data sets of `double` values, in spite of rounding: two calls start with clusters that have the same points, up to their numbers and their order, and Euclidean distances that compare
alike. If these distances are not close to each other and no part of the cluster has two pairs of farthest points, then both calls divide the cluster in the same way. -/
theorem C83_double {cfg cfg' : Cfg} {ds ds' : DataSet Dbl} (hmod : ds.Moderate) (hmod' : ds'.Moderate) {hi hi' : HiEnv Dbl} (hhi : hi.Ok) (hhi' : hi'.Ok) {S : Nat} {ob ob' : ClObj} (hn : ob.cl.n = ds.n)
    (hn' : ob'.cl.n = ds'.n) (batch : Bool) {w w' : World} (hc : HiCallOk cfg S ob w) (hc' : HiCallOk cfg' S ob' w') (hcop : ds.CopiesBelow (2 * S)) (hcop' : ds'.CopiesBelow (2 * S))
    {X X' : List Nat} (hX : StartsWith ob.cl X) (hX' : StartsWith ob'.cl X') {ι : Nat → Nat} (hsame : RenamedCluster ds.eudist X ds'.eudist X' ι) (ht : ds.ClearPairs X) (ht' : ds'.ClearPairs X')
    (ho : OneFarthestPair S ds.eudist X) {o o' : ClObj} {w1 w1' : World} (hr : hierarchical cfg hi (builtinSpi (some ds)) S batch (some ob) w = some ((.ok, some o), w1))
    (hr' : hierarchical cfg' hi' (builtinSpi (some ds')) S batch (some ob') w' = some ((.ok, some o'), w1')) :
    ∀ u ∈ X, ∀ v ∈ X, (ptrBuf o.cl.label).get u = (ptrBuf o.cl.label).get v ↔ (ptrBuf o'.cl.label).get (ι u) = (ptrBuf o'.cl.label).get (ι v) := by
  have hb : ∀ x ∈ X, x < ds.n := fun x hx => hn ▸ hX.bound x hx
  have hb' : ∀ x ∈ X', x < ds'.n := fun x hx => hn' ▸ hX'.bound x hx
  have hm : ∀ x ∈ X, ι x ∈ X' := fun x hx => hsame.points.mem_iff.2 (List.mem_map_of_mem hx)
  refine C83_by_itself hhi hhi' (by rw [hn]; exact hmod.finite.metric.laws) (by rw [hn']; exact hmod'.finite.metric.laws) (by rw [hn]; exact builtinMetric hmod.finite.metric)
    (by rw [hn']; exact builtinMetric hmod'.finite.metric) batch hc hc' (hcop.wellSpread hmod hn) (hcop'.wellSpread hmod' hn') hX hX' ⟨hsame.points, fun x hx y hy u hu v hv => ?_⟩
    (ht.noTies hmod hb) (ht.oneFarthest hmod hb ho) hr hr'
  rw [Bool.eq_iff_iff, ht'.compare hmod' hb' (hm x hx) (hm y hy) (hm u hu) (hm v hv), ht.compare hmod hb hx hy hu hv, ← realLe, ← realLe, hsame.compare x hx y hy u hu v hv]

/-- C83 for data sets of `double` values with one coordinate: it is enough that the distances in the cluster are not close to each other. -/
theorem C83_line_double {cfg cfg' : Cfg} {ds ds' : DataSet Dbl} (hmod : ds.Moderate) (hmod' : ds'.Moderate) {hi hi' : HiEnv Dbl} (hhi : hi.Ok) (hhi' : hi'.Ok) {S : Nat} {ob ob' : ClObj} (hn : ob.cl.n = ds.n)
    (hn' : ob'.cl.n = ds'.n) (batch : Bool) {w w' : World} (hc : HiCallOk cfg S ob w) (hc' : HiCallOk cfg' S ob' w') (hcop : ds.CopiesBelow (2 * S)) (hcop' : ds'.CopiesBelow (2 * S))
    {X X' : List Nat} (hX : StartsWith ob.cl X) (hX' : StartsWith ob'.cl X') {ι : Nat → Nat} (hsame : RenamedCluster ds.eudist X ds'.eudist X' ι) (ht : ds.ClearPairs X) (ht' : ds'.ClearPairs X')
    (hdim : ds.dims = 1) {o o' : ClObj} {w1 w1' : World} (hr : hierarchical cfg hi (builtinSpi (some ds)) S batch (some ob) w = some ((.ok, some o), w1))
    (hr' : hierarchical cfg' hi' (builtinSpi (some ds')) S batch (some ob') w' = some ((.ok, some o'), w1')) :
    ∀ u ∈ X, ∀ v ∈ X, (ptrBuf o.cl.label).get u = (ptrBuf o.cl.label).get v ↔ (ptrBuf o'.cl.label).get (ι u) = (ptrBuf o'.cl.label).get (ι v) :=
  C83_double hmod hmod' hhi hhi' hn hn' batch hc hc' hcop hcop' hX hX' hsame ht ht'
    (ht.line hdim (hiSize hhi (by rw [hn]; exact hmod.finite.metric.laws) (by rw [hn]; exact builtinMetric hmod.finite.metric) batch hc hr)) hr hr'

/-- Different integers on a line. -/
theorem intLine_copies {l : List ℤ} (h : ∀ x < l.length, ∀ y < l.length, l.getD x 0 = l.getD y 0 → x = y) : (intLine l).CopiesBelow (2 * 2) := by
  intro k hnd hl hsame
  by_contra hge
  rw [not_lt] at hge
  match k, hge with
  | x :: y :: rest, _ =>
    have hx : x < l.length := hl x (by simp)
    have hy : y < l.length := hl y (by simp)
    have h1 := hsame x (by simp) y (by simp) 0 (show 0 < 1 by norm_num)
    rw [intLine_coord l hx, intLine_coord l hy, Int.cast_inj] at h1
    have h2 := h x hx y hy h1
    subst h2
    simp at hnd

/-- Integers on a line whose distances differ by a factor of more than 33 / 32. -/
theorem intLine_clear {l : List ℤ} {X : List Nat} (hX : ∀ x ∈ X, x < l.length) (h : ∀ x ∈ X, ∀ y ∈ X, ∀ u ∈ X, ∀ v ∈ X, x ≠ y → u ≠ v → ¬ SamePair x y u v →
    33 * (l.getD x 0 - l.getD y 0).natAbs < 32 * (l.getD u 0 - l.getD v 0).natAbs ∨ 33 * (l.getD u 0 - l.getD v 0).natAbs < 32 * (l.getD x 0 - l.getD y 0).natAbs) : (intLine l).ClearPairs X := by
  have hf : nearFactor < 33 / 32 := by
    unfold nearFactor
    norm_num
  have e : ∀ x ∈ X, ∀ y ∈ X, (intLine l).eudist x y = ((l.getD x 0 - l.getD y 0).natAbs : ℝ) := by
    intro x hx y hy
    rw [intLine_eudist l (hX x hx) (hX y hy), Int.abs_eq_natAbs]
    simp
  have key : ∀ a b : Nat, 33 * a < 32 * b → nearFactor * (a : ℝ) < (b : ℝ) := by
    intro a b h
    have h' : (33 : ℝ) * a < 32 * b := by exact_mod_cast h
    have := mul_le_mul_of_nonneg_right hf.le (Nat.cast_nonneg (α := ℝ) a)
    linarith
  intro x hx y hy u hu v hv e1 e2 e3
  rw [e x hx y hy, e u hu v hv]
  exact (h x hx y hy u hu v hv e1 e2 e3).imp (key _ _) (key _ _)

def rulerPlaces : List ℤ := [0, 100, 1, 4, 101, 10, 12, 17]

def mirrorPlaces : List ℤ := [39, 29, 25, 13, 7, 5]

theorem rulerDbl_moderate : (intLine rulerPlaces).Moderate := intLine_moderate (by unfold rulerPlaces; decide)

theorem mirrorDbl_moderate : (intLine mirrorPlaces).Moderate := intLine_moderate (by unfold mirrorPlaces; decide)

theorem rulerDbl_clear : (intLine rulerPlaces).ClearPairs [0, 2, 3, 5, 6, 7] := intLine_clear (by decide) (by unfold SamePair; decide +kernel)

theorem mirrorDbl_clear : (intLine mirrorPlaces).ClearPairs (List.range 6) := intLine_clear (by decide) (by unfold SamePair; decide +kernel)

theorem rulerDbl_same : RenamedCluster (intLine rulerPlaces).eudist [0, 2, 3, 5, 6, 7] (intLine mirrorPlaces).eudist (List.range 6) mirrorName := by
  refine ⟨by decide, fun x hx y hy u hu v hv => ?_⟩
  have b : ∀ x ∈ [0, 2, 3, 5, 6, 7], x < rulerPlaces.length ∧ mirrorName x < mirrorPlaces.length := by decide
  rw [Bool.eq_iff_iff, realLe, realLe, intLine_eudist _ (b x hx).1 (b y hy).1, intLine_eudist _ (b u hu).1 (b v hv).1, intLine_eudist _ (b x hx).2 (b y hy).2, intLine_eudist _ (b u hu).2 (b v hv).2,
    Int.cast_le, Int.cast_le]
  have h' : ∀ x ∈ [0, 2, 3, 5, 6, 7], ∀ y ∈ [0, 2, 3, 5, 6, 7], |mirrorPlaces.getD (mirrorName x) 0 - mirrorPlaces.getD (mirrorName y) 0| = 2 * |rulerPlaces.getD x 0 - rulerPlaces.getD y 0| := by
    decide +kernel
  rw [h' x hx y hy, h' u hu v hv]
  omega

/-- The hypotheses of C83 are met by data sets of `double` values: both calls succeed, and divide the six points in the same way. -/
example (batch : Bool) : ∃ o o' w1 w1', hierarchical sampleCfg dblEnv (builtinSpi (some (intLine rulerPlaces))) 2 batch (some (hiObj 8 2 (some ⟨6, rulerLabels⟩))) (sampleWorld [5, 6]) = some ((.ok, some o), w1) ∧
    hierarchical sampleCfg dblEnv (builtinSpi (some (intLine mirrorPlaces))) 2 batch (some (hiObj 6 0 none)) (sampleWorld [5]) = some ((.ok, some o'), w1') ∧
    ∀ u ∈ [0, 2, 3, 5, 6, 7], ∀ v ∈ [0, 2, 3, 5, 6, 7], (ptrBuf o.cl.label).get u = (ptrBuf o.cl.label).get v ↔ (ptrBuf o'.cl.label).get (mirrorName u) = (ptrBuf o'.cl.label).get (mirrorName v) := by
  have run : ∀ {l : List ℤ} (hm : (intLine l).Moderate) {ob : ClObj} {w : World}, ob.cl.n = l.length → HiCallOk sampleCfg 2 ob w → HiAccepts sampleCfg (builtinSpi (some (intLine l))).valid (builtinSpi (some (intLine l))).numPoints 2 ob.cl → w.NoFail →
      ¬ HiTooBig sampleCfg ob.cl.n ob.cl.numClusters → ∃ o w1, hierarchical sampleCfg dblEnv (builtinSpi (some (intLine l))) 2 batch (some ob) w = some ((.ok, some o), w1) := by
    intro l hm ob w hn hc hacc hw hbig
    have hl : DistLaws ob.cl.n (intLine l).dist := by rw [hn]; exact hm.finite.metric.laws
    have hs : MetricOk (builtinSpi (some (intLine l))) ob.cl.n (intLine l).dist False := by rw [hn]; exact builtinMetric hm.finite.metric
    obtain ⟨e, cl, w', M, h1, h2, -⟩ := C38_hierarchical dblEnv_ok hl hs batch hc hacc hbig
    rcases h2 with rfl | ⟨-, -, h2⟩
    · exact ⟨_, _, h1⟩
    · exact absurd hw h2
  obtain ⟨o, w1, h1⟩ := run rulerDbl_moderate (ob := hiObj 8 2 (some ⟨6, rulerLabels⟩)) (w := sampleWorld [5, 6]) rfl ruler_callOk ⟨by decide, rfl, rfl, by decide, by decide⟩ (fun _ _ => rfl) (by unfold HiTooBig; decide)
  obtain ⟨o', w1', h1'⟩ := run mirrorDbl_moderate (ob := hiObj 6 0 none) (w := sampleWorld [5]) rfl (hiCallOk_sample (by decide)) ⟨by decide, rfl, rfl, by decide, by decide⟩ (fun _ _ => rfl) (by unfold HiTooBig; decide)
  exact ⟨o, o', w1, w1', h1, h1', C83_line_double rulerDbl_moderate mirrorDbl_moderate dblEnv_ok dblEnv_ok rfl rfl batch ruler_callOk (hiCallOk_sample (by decide)) (intLine_copies (by decide)) (intLine_copies (by decide))
    ruler_starts mirror_starts rulerDbl_same rulerDbl_clear mirrorDbl_clear rfl h1 h1'⟩

end Scc
