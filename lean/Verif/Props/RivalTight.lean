/-
Limits of property C85: the factor four is attained, and hierarchical clustering has no such guarantee.
-/
import Verif.Props.Rival
import Verif.Props.Hierarchical

namespace Scc

/-! ### The factor is attained -/

theorem of_statSummary {r : Option ((ErrorCode × Option (Stats Int)) × World)} {ns : List Nat} {ds : List Int} (h : statSummary r = some (.ok, ns, ds)) : ∃ s w', r = some ((.ok, some s), w') ∧
    [s.numPoints, s.numAssigned, s.numClusters, s.populated, s.minSize, s.maxSize] = ns ∧ [s.avgSize, s.sumDists, s.minDist, s.maxDist, s.avgMin, s.avgMax, s.avgWeighted, s.avgUnweighted] = ds := by
  obtain _ | ⟨⟨e, _ | s⟩, w'⟩ := r
  · cases h
  · cases h
  · simp only [statSummary, Option.bind_some, Option.map_some, Option.some.injEq, Prod.mk.injEq] at h
    obtain ⟨rfl, h1, h2⟩ := h
    exact ⟨s, w', rfl, h1, h2⟩

/-- A clustering of at most nine points is accepted when the functions say so. -/
theorem accepted_of_run {ds : DataSet Int} {o : Options Int} {n k : Nat} {l : List Int} {ns : List Nat} {es : List Int} (hn : n * (n - 1) ≤ 1000) (hval : ValidLabels sampleCfg (Buf.ofList l) n k)
    (harr : OptionArrays n o (List.range n) (fun _ => 0) (fun _ => 0)) (hty : o.numTypes < 2)
    (hck : (checkClustering sampleCfg (some (hiObj n k (some ⟨6, Buf.ofList l⟩))) o true (sampleWorld [5, 6])).map (·.1) = some (.ok, some true))
    (hst : statSummary (getStats sampleCfg (builtinSpi (some ds)) (some (hiObj n k (some ⟨6, Buf.ofList l⟩))) true (sampleWorld [5, 6])) = some (.ok, n :: n :: ns, es)) :
    ∃ s2, Accepted sampleCfg (builtinSpi (some ds)) o (List.range n) (fun _ => 0) (fun _ => 0) n (hiObj n k (some ⟨6, Buf.ofList l⟩)) s2 ∧
      [s2.avgSize, s2.sumDists, s2.minDist, s2.maxDist, s2.avgMin, s2.avgMax, s2.avgWeighted, s2.avgUnweighted] = es := by
  obtain ⟨s2, w2, h1, h2, h3⟩ := of_statSummary hst
  obtain ⟨⟨r, w1⟩, h4, h5⟩ := Option.map_eq_some_iff.1 hck
  dsimp only at h5
  subst h5
  simp only [List.cons.injEq] at h2
  refine ⟨s2, ⟨rfl, ⟨sampleWorld [5, 6], _, ⟨sampleCfg_valid, le_refl ({5, 6} : Multiset Nat), fun _ lb h v hv => ?_, harr, fun h => absurd h (by omega)⟩, h4⟩, ⟨sampleWorld [5, 6], _, ⟨sampleCfg_valid, le_refl ({5, 6} : Multiset Nat), fun _ lb h => ?_, ?_⟩, h1⟩, fun _ => ?_⟩, h3⟩
  · cases h
    rcases hval v hv with h | ⟨c, -, h⟩ <;> exact ⟨_, h⟩
  · cases h
    exact hval
  · show n * (n - 1) ≤ 2 ^ 64 - 1 ∧ n * (n - 1) < 2 ^ 64
    omega
  · rw [h2.1, h2.2.1]

/-- Nine points in the plane: three clusters of three points have no two points with a distance above one, but the first point is at distance one of points of all of them. -/
def rimData : DataSet Int := mkData 2 [0, 0, -1, 0, 1, 0, 0, 1, 0, 1, -1, 0, -2, 0, 1, 0, 2, 0]

def rimOpts : Options Int := { (rivalOpts : Options Int) with sizeConstraint := 3 }

def rimLabels : List Int := [0, 1, 2, 0, 0, 1, 1, 2, 2]

theorem rim_callOk : CallOk sampleCfg rimOpts (hiObj 9 0 none) (List.range 9) (fun _ => 0) (fun _ => 0) (sampleWorld [5]) where
  config := sampleCfg_valid
  live := by simp [hiObj, sampleWorld, ptrOwn, ptrIds]
  room := by intro lb h; cases h
  arrays := ⟨fun _ => rfl, fun b h => (by cases h), fun x hx => List.mem_range.1 hx, fun b h => absurd h (by show ¬ 2 ≤ 0; decide), fun b h => absurd h (by show ¬ 2 ≤ 0; decide)⟩
  limits := fun _ => ⟨by show 9 * 3 ≤ 2 ^ 64 - 1; decide, fun h => absurd h (by show ¬ 2 ≤ 0; decide)⟩
  unchecked := fun _ => rfl

/-- The factor in C85 cannot be smaller: for these nine points and the size constraint three, the largest distance of the new clustering is 4, and the library accepts a clustering with the largest distance 1. -/
theorem C85_tight : CallOk sampleCfg rimOpts (hiObj 9 0 none) (List.range 9) (fun _ => 0) (fun _ => 0) (sampleWorld [5]) ∧
    ∃ ob1 w' s w2 ob2 s2, scClustering sampleCfg (builtinSpi (some rimData)) rimOpts (some (hiObj 9 0 none)) (sampleWorld [5]) = some ((.ok, some ob1), w') ∧
      getStats sampleCfg (builtinSpi (some rimData)) (some ob1) true w' = some ((.ok, some s), w2) ∧
      Accepted sampleCfg (builtinSpi (some rimData)) rimOpts (List.range 9) (fun _ => 0) (fun _ => 0) 9 ob2 s2 ∧ s.maxDist = 4 ∧ s2.maxDist = 1 := by
  refine ⟨rim_callOk, ?_⟩
  have h1 : statSummary ((scClustering sampleCfg (builtinSpi (some rimData)) rimOpts (some (hiObj 9 0 none)) (sampleWorld [5])).bind fun r => getStats sampleCfg (builtinSpi (some rimData)) r.1.2 true r.2) =
      some (.ok, [9, 9, 1, 1, 9, 9], [9, 54, 0, 4, 0, 4, 1, 1]) := by decide +kernel
  have h2 : (scClustering sampleCfg (builtinSpi (some rimData)) rimOpts (some (hiObj 9 0 none)) (sampleWorld [5])).map (fun r => (r.1.1, r.1.2.isSome)) = some (.ok, true) := by decide +kernel
  obtain ⟨⟨⟨e, p⟩, w'⟩, h3, h4⟩ := Option.map_eq_some_iff.1 h2
  simp only [Prod.mk.injEq] at h4
  obtain ⟨rfl, h4⟩ := h4
  obtain ⟨ob1, rfl⟩ := Option.isSome_iff_exists.1 h4
  rw [h3] at h1
  obtain ⟨s, w2, h5, -, h6⟩ := of_statSummary h1
  obtain ⟨s2, hacc, h7⟩ := accepted_of_run (ds := rimData) (o := rimOpts) (n := 9) (k := 3) (l := rimLabels) (ns := [3, 3, 3, 3]) (es := [3, 6, 0, 1, 0, 1, 0, 0]) (by decide)
    (by unfold ValidLabels Unassigned; decide +kernel) rim_callOk.arrays (by decide) (by decide +kernel) (by decide +kernel)
  simp only [List.cons.injEq] at h6 h7
  exact ⟨ob1, w', s, w2, _, s2, h3, h5, hacc, h6.2.2.2.1, h7.2.2.2.1⟩

/-! ### Hierarchical clustering -/

/-- Three, two and three points, far from each other. -/
def threeGroups : DataSet Int := mkData 1 [0, 1, 2, 100, 101, 200, 201, 202]

/-- Hierarchical clustering has no such guarantee: in batch mode the two points in the middle are separated, so that the largest distance is 99, but the library accepts a clustering with the largest distance 2. -/
theorem C85_fails_hierarchical : HiCallOk sampleCfg 2 (hiObj 8 0 none) (sampleWorld [5]) ∧ Spread 2 threeGroups.dist (List.range 8) ∧
    ∃ ob1 w' s w2 ob2 s2, hierarchical sampleCfg sampleEnv (builtinSpi (some threeGroups)) 2 true (some (hiObj 8 0 none)) (sampleWorld [5]) = some ((.ok, some ob1), w') ∧
      getStats sampleCfg (builtinSpi (some threeGroups)) (some ob1) true w' = some ((.ok, some s), w2) ∧
      Accepted sampleCfg (builtinSpi (some threeGroups)) rivalOpts (List.range 8) (fun _ => 0) (fun _ => 0) 8 ob2 s2 ∧ s.maxDist = 99 ∧ s2.maxDist = 2 := by
  refine ⟨hiCallOk_sample (by decide), by unfold Spread; decide +kernel, ?_⟩
  have h1 : statSummary ((hierarchical sampleCfg sampleEnv (builtinSpi (some threeGroups)) 2 true (some (hiObj 8 0 none)) (sampleWorld [5])).bind fun r => getStats sampleCfg (builtinSpi (some threeGroups)) r.1.2 true r.2) =
      some (.ok, [8, 8, 4, 4, 2, 2], [2, 199, 1, 99, 49, 49, 49, 49]) := by decide +kernel
  have h2 : (hierarchical sampleCfg sampleEnv (builtinSpi (some threeGroups)) 2 true (some (hiObj 8 0 none)) (sampleWorld [5])).map (fun r => (r.1.1, r.1.2.isSome)) = some (.ok, true) := by decide +kernel
  obtain ⟨⟨⟨e, p⟩, w'⟩, h3, h4⟩ := Option.map_eq_some_iff.1 h2
  simp only [Prod.mk.injEq] at h4
  obtain ⟨rfl, h4⟩ := h4
  obtain ⟨ob1, rfl⟩ := Option.isSome_iff_exists.1 h4
  rw [h3] at h1
  obtain ⟨s, w2, h5, -, h6⟩ := of_statSummary h1
  obtain ⟨s2, hacc, h7⟩ := accepted_of_run (ds := threeGroups) (o := rivalOpts) (n := 8) (k := 3) (l := [0, 0, 0, 1, 1, 2, 2, 2]) (ns := [3, 3, 2, 3]) (es := [2, 9, 1, 2, 1, 1, 1, 1]) (by decide)
    (by unfold ValidLabels Unassigned; decide +kernel)
    ⟨fun _ => rfl, fun b h => (by cases h), fun x hx => List.mem_range.1 hx, fun b h => absurd h (by show ¬ 2 ≤ 0; decide), fun b h => absurd h (by show ¬ 2 ≤ 0; decide)⟩ (by decide) (by decide +kernel) (by decide +kernel)
  simp only [List.cons.injEq] at h6 h7
  exact ⟨ob1, w', s, w2, _, s2, h3, h5, hacc, h6.2.2.2.1, h7.2.2.2.1⟩

end Scc
