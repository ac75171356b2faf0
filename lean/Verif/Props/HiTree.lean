/-
Properties C65 and C66: what `scc_hierarchical_clustering` computes. The specification is in Spec/HiTree.lean.
-/
import Verif.Proofs.HiTree
import Verif.Props.Hierarchical

set_option linter.unusedVariables false

namespace Scc

variable {F : Type} [FloatOps F]

/-- C65: starting from an empty clustering, the clusters are those of the divisive algorithm, applied to the set of all points. They are numbered from the last leaf of the tree of splits to the
first. This is for all inputs in which no `2 * S` points coincide, for all ways to sort that satisfy the requirements of `qsort`, and for both values of the batch flag. -/
theorem C65_from_empty {cfg : Cfg} {dist : Nat → Nat → F} {hi : HiEnv F} (hhi : hi.Ok) {spi : Spi F} {mayRefuse : Prop} {S : Nat} {ob : ClObj} (hd : DistLaws ob.cl.n dist)
    (hs : MetricOk spi ob.cl.n dist mayRefuse) (batch : Bool) {w : World} (hc : HiCallOk cfg S ob w) (hempty : ob.cl.numClusters = 0) (hsp : Spread S dist (List.range ob.cl.n)) :
    HiOnSuccess cfg hi spi S batch ob w fun k b => HiTree S batch dist (List.range ob.cl.n) ((List.range k).map (members b ob.cl.n)) := by
  refine hiOnSuccess hhi hd hs batch hc fun labels0 l k done hacc hold h => ?_
  unfold startClusters at h
  rw [if_pos hempty] at h
  exact h.tree hc.config hsp

/-- Six points on a line meet the hypotheses; the points are broken in two, one half is broken again. -/
example : HiEnv.Ok sampleEnv ∧ Nonempty (MetricOk (builtinSpi (some lineData)) 6 lineData.dist False) ∧ DistLaws 6 lineData.dist ∧
    HiCallOk sampleCfg 2 (hiObj 6 0 none) (sampleWorld [5]) ∧ Spread 2 lineData.dist (List.range 6) ∧
    hiSummary (hierarchical sampleCfg sampleEnv (builtinSpi (some lineData)) 2 true (some (hiObj 6 0 none)) (sampleWorld [5])) =
      some (.ok, 3, [some 2, some 2, some 1, some 1, some 0, some 0]) :=
  ⟨sampleEnv_ok, ⟨builtinMetric (intMetric lineData_complete)⟩, (intMetric lineData_complete).laws, hiCallOk_sample (by decide), by unfold Spread; decide +kernel, by decide +kernel⟩

/-- C65: starting from a clustering with clusters, the algorithm is applied to each cluster on its own, from the last cluster to the first. -/
theorem C65_refine {cfg : Cfg} {dist : Nat → Nat → F} {hi : HiEnv F} (hhi : hi.Ok) {spi : Spi F} {mayRefuse : Prop} {S : Nat} {ob : ClObj} (hd : DistLaws ob.cl.n dist)
    (hs : MetricOk spi ob.cl.n dist mayRefuse) (batch : Bool) {w : World} (hc : HiCallOk cfg S ob w) (hne : ob.cl.numClusters ≠ 0)
    (hsp : ∀ c, c < ob.cl.numClusters → Spread S dist (members (ptrBuf ob.cl.label) ob.cl.n c)) :
    HiOnSuccess cfg hi spi S batch ob w fun k b => ∃ trees, List.Forall₂ (HiTree S batch dist) ((List.range ob.cl.numClusters).reverse.map (members (ptrBuf ob.cl.label) ob.cl.n)) trees ∧
      trees.flatten = (List.range k).map (members b ob.cl.n) := by
  refine hiOnSuccess hhi hd hs batch hc fun labels0 l k done hacc hold h => ?_
  unfold startClusters at h
  rw [if_neg hne] at h
  have hinit := isInitialized_iff.1 hacc.initialized
  obtain ⟨lb, hlb⟩ := Option.ne_none_iff_exists'.1 (hinit.2.2.2.2 (by omega))
  have := hold lb hlb
  subst this
  rw [hlb] at h hsp ⊢
  exact h.trees hc.config (hc.labels hne lb hlb).1 hsp

/-- Nine points in three clusters, one of which is broken in two, meet the hypotheses. -/
example : HiCallOk sampleCfg 2 (hiObj 9 3 (some ⟨6, nineLabels⟩)) (sampleWorld [5, 6]) ∧ DistLaws 9 nineData.dist ∧ (∀ c, c < 3 → Spread 2 nineData.dist (members nineLabels 9 c)) ∧
    hiSummary (hierarchical sampleCfg sampleEnv (builtinSpi (some nineData)) 2 true (some (hiObj 9 3 (some ⟨6, nineLabels⟩))) (sampleWorld [5, 6])) =
      some (.ok, 4, [some 3, some 3, some 1, some 1, some 0, some 2, some 2, some 2, some sampleCfg.na]) :=
  ⟨hiCallOk_nine, (intMetric nineData_complete).laws, by unfold Spread; decide +kernel, by decide +kernel⟩

/-- C65: in each split both halves have a center and `S - 1` first points. Without batches, every other point is in the half of the closer center, and in the first half if both are
equally close. -/
theorem C65_closer {n S : Nat} {dist : Nat → Nat → F} (hd : DistLaws n dist) {X A B : List Nat} (hX : ∀ x ∈ X, x < n) (h : SplitOf S false dist X A B) :
    ∃ (c1 c2 : Nat) (A0 B0 A1 B1 : List Nat), Centers dist X c1 c2 ∧ X.Perm (A ++ B) ∧ A.Perm (c1 :: (A0 ++ A1)) ∧ B.Perm (c2 :: (B0 ++ B1)) ∧ A0.length = S - 1 ∧ B0.length = S - 1 ∧
      (∀ x ∈ A1, FloatOps.le (dist c1 x) (dist c2 x) = true) ∧ ∀ x ∈ B1, FloatOps.lt (dist c2 x) (dist c1 x) = true := by
  have hp := h.perm
  obtain ⟨c1, c2, U, A0, B0, V, A1, B1, h1, h2, h3, h4, h5, h6⟩ := h
  have hV : ∀ x ∈ V, x < n := fun x hx => hX x (h2.mem_iff.2 (by simp [h3.perm.mem_iff.2 (show x ∈ A0 ++ (B0 ++ V) by simp [hx])]))
  have h7 := h4.closer hd.order (fun x hx => hd.refl (hX _ h1.mem1) (hV x hx)) (fun x hx => hd.refl (hX _ h1.mem2) (hV x hx))
  refine ⟨c1, c2, A0, B0, A1, B1, h1, hp, h5, h6, h3.length.1, h3.length.2, h7.1, fun x hx => ?_⟩
  have hx' := hV x (h4.perm.mem_iff.2 (by simp [hx]))
  exact (hd.order.lt_iff _ _ (hd.num c2 x (hX _ h1.mem2) hx') (hd.num c1 x (hX _ h1.mem1) hx')).2 (h7.2 x hx)

/-- A split of six points: the centers are the first and the last point, and the others are divided between them. -/
example : SplitOf 2 false (mkData 1 [0, 1, 2, 10, 11, 12]).dist (List.range 6) [0, 1, 2] [5, 4, 3] :=
  ⟨0, 5, [1, 2, 3, 4], [1], [4], [2, 3], [2], [3], ⟨by decide, by decide, by decide +kernel, by decide +kernel, [0, 5, 1], by decide, by decide, by decide, by decide +kernel⟩, by decide,
    .first (V := [2, 3, 4]) (ys := [4]) (W := [1, 2, 3]) (a := 1) (b := 4) ⟨by decide, rfl, by decide +kernel⟩ ⟨by decide, rfl, by decide +kernel⟩ ⟨by decide, by decide +kernel⟩
      ⟨by decide, by decide +kernel⟩ (by decide +kernel) ⟨by decide, rfl, by decide +kernel⟩,
    .first (xs := [2]) (V := [3]) (ys := [3]) (W := [2]) (A := []) (a := 2) (b := 3) (by decide) ⟨by decide, rfl, by decide +kernel⟩ ⟨by decide, rfl, by decide +kernel⟩
      ⟨by decide, by decide +kernel⟩ ⟨by decide, by decide +kernel⟩ (by decide +kernel)
      (.second (xs := [3]) (V := []) (ys := [3]) (W := []) (A := []) (B := []) (a := 3) (b := 3) (by decide) ⟨by decide, rfl, by decide +kernel⟩ ⟨by decide, rfl, by decide +kernel⟩
        ⟨by decide, by decide +kernel⟩ ⟨by decide, by decide +kernel⟩ (by decide +kernel) .done),
    by decide, by decide⟩

/-- C66: if the points fall into two groups that are far apart and have at least `S` points each, then no cluster has points of both groups. This is for calls without batches that start from an
empty clustering. -/
theorem C66_from_empty {cfg : Cfg} {dist : Nat → Nat → F} {hi : HiEnv F} (hhi : hi.Ok) {spi : Spi F} {mayRefuse : Prop} {S : Nat} {ob : ClObj} (hd : DistLaws ob.cl.n dist)
    (hs : MetricOk spi ob.cl.n dist mayRefuse) {w : World} (hc : HiCallOk cfg S ob w) (hempty : ob.cl.numClusters = 0) (hsp : Spread S dist (List.range ob.cl.n))
    {g : Nat → Bool} (hg : TwoGroups S dist (List.range ob.cl.n) g) :
    HiOnSuccess cfg hi spi S false ob w fun k b => ∀ i, i < k → ∀ u ∈ members b ob.cl.n i, ∀ v ∈ members b ob.cl.n i, g u = g v := by
  refine hiOnSuccess hhi hd hs false hc fun labels0 l k done hacc hold h => ?_
  unfold startClusters at h
  rw [if_pos hempty] at h
  intro i hi
  exact (h.tree hc.config hsp).groups hd (fun x hx => List.mem_range.1 hx) (by have := hacc.size_two; omega) hg _ (List.mem_map.2 ⟨i, List.mem_range.2 hi, rfl⟩)

/-- Two groups of three points. -/
def pairData : DataSet Int := mkData 1 [0, 1, 2, 10, 11, 12]

theorem pairData_complete : pairData.Complete := mkData_complete (by decide)

theorem pairData_groups : TwoGroups 2 pairData.dist (List.range 6) (fun v => decide (v < 3)) := ⟨by decide +kernel, by decide +kernel, by decide +kernel⟩

example : HiCallOk sampleCfg 2 (hiObj 6 0 none) (sampleWorld [5]) ∧ DistLaws 6 pairData.dist ∧ Spread 2 pairData.dist (List.range 6) ∧
    TwoGroups 2 pairData.dist (List.range 6) (fun v => decide (v < 3)) ∧
    hiSummary (hierarchical sampleCfg sampleEnv (builtinSpi (some pairData)) 2 false (some (hiObj 6 0 none)) (sampleWorld [5])) =
      some (.ok, 2, [some 1, some 1, some 1, some 0, some 0, some 0]) :=
  ⟨hiCallOk_sample (by decide), (intMetric pairData_complete).laws, by unfold Spread; decide +kernel, pairData_groups, by decide +kernel⟩

/-- C66: the same for each cluster of a clustering that is refined. -/
theorem C66_refine {cfg : Cfg} {dist : Nat → Nat → F} {hi : HiEnv F} (hhi : hi.Ok) {spi : Spi F} {mayRefuse : Prop} {S : Nat} {ob : ClObj} (hd : DistLaws ob.cl.n dist)
    (hs : MetricOk spi ob.cl.n dist mayRefuse) {w : World} (hc : HiCallOk cfg S ob w) (hne : ob.cl.numClusters ≠ 0)
    (hsp : ∀ c, c < ob.cl.numClusters → Spread S dist (members (ptrBuf ob.cl.label) ob.cl.n c)) :
    HiOnSuccess cfg hi spi S false ob w fun k b => ∀ c, c < ob.cl.numClusters → ∀ g : Nat → Bool, TwoGroups S dist (members (ptrBuf ob.cl.label) ob.cl.n c) g →
      ∀ i, i < k → ∀ u ∈ members b ob.cl.n i, ∀ v ∈ members b ob.cl.n i, u ∈ members (ptrBuf ob.cl.label) ob.cl.n c → g u = g v := by
  refine hiOnSuccess hhi hd hs false hc fun labels0 l k done hacc hold h => ?_
  unfold startClusters at h
  rw [if_neg hne] at h
  have hinit := isInitialized_iff.1 hacc.initialized
  obtain ⟨lb, hlb⟩ := Option.ne_none_iff_exists'.1 (hinit.2.2.2.2 (by omega))
  have := hold lb hlb
  subst this
  rw [hlb] at h hsp ⊢
  obtain ⟨trees, h1, h2⟩ := h.trees hc.config (hc.labels hne lb hlb).1 hsp
  intro c hcl g hg i hi u hu v hv huc
  have hm : members l ob.cl.n i ∈ trees.flatten := by rw [h2]; exact List.mem_map.2 ⟨i, List.mem_range.2 hi, rfl⟩
  obtain ⟨ls, hls, hml⟩ := List.mem_flatten.1 hm
  obtain ⟨c', hc', ht⟩ := forest_mem h1 hls
  have huc' := ht.subset hml hu
  have hcc : c' = c := by
    have e1 := (mem_members.1 huc).2
    have e2 := (mem_members.1 huc').2
    rw [e1] at e2
    simpa using e2.symm
  subst hcc
  exact ht.groups hd (fun x hx => (mem_members.1 hx).1) (by have := hacc.size_two; omega) hg _ hml u hu v hv

/-- The second cluster of the nine points falls into the groups {2, 3} and {5, 6, 7}, which end up in different clusters. -/
example : HiCallOk sampleCfg 2 (hiObj 9 3 (some ⟨6, nineLabels⟩)) (sampleWorld [5, 6]) ∧ DistLaws 9 nineData.dist ∧ (∀ c, c < 3 → Spread 2 nineData.dist (members nineLabels 9 c)) ∧
    TwoGroups 2 nineData.dist (members nineLabels 9 1) (fun v => decide (v < 4)) ∧
    hiSummary (hierarchical sampleCfg sampleEnv (builtinSpi (some nineData)) 2 false (some (hiObj 9 3 (some ⟨6, nineLabels⟩))) (sampleWorld [5, 6])) =
      some (.ok, 4, [some 3, some 3, some 1, some 1, some 0, some 2, some 2, some 2, some sampleCfg.na]) :=
  ⟨hiCallOk_nine, (intMetric nineData_complete).laws, by unfold Spread; decide +kernel, ⟨by decide +kernel, by decide +kernel, by decide +kernel⟩, by decide +kernel⟩

theorem HiOnSuccess.summary {cfg : Cfg} {hi : HiEnv F} {spi : Spi F} {S : Nat} {batch : Bool} {ob : ClObj} {w : World} {Q : Nat → Buf Int → Prop} {k : Nat} {l : List (Option Int)}
    (h : HiOnSuccess cfg hi spi S batch ob w Q) (hrun : hiSummary (hierarchical cfg hi spi S batch (some ob) w) = some (.ok, k, l)) :
    ∃ b : Buf Int, (List.range ob.cl.n).map b.get = l ∧ Q k b := by
  obtain ⟨e, p, w', h1, h2⟩ := h
  rw [h1] at hrun
  cases p with
  | none => cases hrun
  | some o =>
    simp only [hiSummary, Option.bind_some, Option.map_some, Option.some.injEq, Prod.mk.injEq] at hrun
    obtain ⟨rfl, hk, hl⟩ := hrun
    obtain ⟨-, cl, b, hp, hn, hlab, -, -, hq⟩ := h2 rfl
    simp only [Option.some.injEq] at hp
    subst hp
    dsimp only at hl hn hlab hk
    rw [hlab, hn] at hl
    exact ⟨b.buf, hl, hk ▸ hq⟩

/-- With batches C66 is false: of the two groups of three points, one point each ends up in the second cluster. -/
theorem C66_fails_batch : HiCallOk sampleCfg 2 (hiObj 6 0 none) (sampleWorld [5]) ∧ DistLaws 6 pairData.dist ∧ Spread 2 pairData.dist (List.range 6) ∧
    TwoGroups 2 pairData.dist (List.range 6) (fun v => decide (v < 3)) ∧
    ¬ HiOnSuccess sampleCfg sampleEnv (builtinSpi (some pairData)) 2 true (hiObj 6 0 none) (sampleWorld [5]) fun k b =>
      ∀ i, i < k → ∀ u ∈ members b 6 i, ∀ v ∈ members b 6 i, decide (u < 3) = decide (v < 3) := by
  refine ⟨hiCallOk_sample (by decide), (intMetric pairData_complete).laws, by unfold Spread; decide +kernel, pairData_groups, fun h => ?_⟩
  obtain ⟨b, h1, h2⟩ := h.summary (k := 3) (l := [some 2, some 2, some 1, some 1, some 0, some 0]) (by decide +kernel)
  have g2 : ([some 2, some 2, some 1, some 1, some 0, some 0] : List (Option Int))[2]? = some (b.get 2) := by rw [← h1]; rfl
  have g3 : ([some 2, some 2, some 1, some 1, some 0, some 0] : List (Option Int))[3]? = some (b.get 3) := by rw [← h1]; rfl
  have := h2 1 (by decide) 2 (mem_members.2 ⟨by decide, by simpa using g2.symm⟩) 3 (mem_members.2 ⟨by decide, by simpa using g3.symm⟩)
  revert this
  decide

/-- Three groups of two points. -/
def tripleData : DataSet Int := mkData 1 [0, 2, 14, 17, 30, 31]

theorem tripleData_complete : tripleData.Complete := mkData_complete (by decide)

/-- With three groups C66 is false, no matter how far they are apart compared with their size: the group in the middle is broken up in the first split, as each of its points goes to the closer center. -/
theorem C66_fails_three : HiCallOk sampleCfg 2 (hiObj 6 0 none) (sampleWorld [5]) ∧ DistLaws 6 tripleData.dist ∧ Spread 2 tripleData.dist (List.range 6) ∧
    (∀ q, q < 6 → ∀ x, x < 6 → ∀ y, y < 6 → x / 2 = q / 2 ∧ y / 2 ≠ q / 2 → FloatOps.lt (tripleData.dist q x) (tripleData.dist q y) = true) ∧
    ¬ HiOnSuccess sampleCfg sampleEnv (builtinSpi (some tripleData)) 2 false (hiObj 6 0 none) (sampleWorld [5]) fun k b =>
      ∀ i, i < k → ∀ u ∈ members b 6 i, ∀ v ∈ members b 6 i, u / 2 = v / 2 := by
  refine ⟨hiCallOk_sample (by decide), (intMetric tripleData_complete).laws, by unfold Spread; decide +kernel, by decide +kernel, fun h => ?_⟩
  obtain ⟨b, h1, h2⟩ := h.summary (k := 2) (l := [some 1, some 1, some 1, some 0, some 0, some 0]) (by decide +kernel)
  have g2 : ([some 1, some 1, some 1, some 0, some 0, some 0] : List (Option Int))[1]? = some (b.get 1) := by rw [← h1]; rfl
  have g3 : ([some 1, some 1, some 1, some 0, some 0, some 0] : List (Option Int))[2]? = some (b.get 2) := by rw [← h1]; rfl
  have := h2 1 (by decide) 1 (mem_members.2 ⟨by decide, by simpa using g2.symm⟩) 2 (mem_members.2 ⟨by decide, by simpa using g3.symm⟩)
  revert this
  decide

end Scc
