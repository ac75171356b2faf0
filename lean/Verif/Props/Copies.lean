/-
C93: points with enough copies are put together with their copies only. `SamePlace` and `EnoughCopies` are in Spec/Copies.lean.
-/
import Verif.Spec.Copies
import Verif.Props.DoubleMore
import Verif.Props.Constant
import Verif.Props.StatsDouble

namespace Scc

theorem DataSet.SamePlace.symm {ds : DataSet Dbl} {x y : Nat} (h : ds.SamePlace x y) : ds.SamePlace y x := fun t ht => (h t ht).symm

theorem DataSet.SamePlace.trans {ds : DataSet Dbl} {x y z : Nat} (h : ds.SamePlace x y) (h' : ds.SamePlace y z) : ds.SamePlace x z := fun t ht => (h t ht).trans (h' t ht)

theorem exists_samePlace (ds : DataSet Dbl) (x : Nat) : ∃ y, ds.SamePlace y x := ⟨x, fun _ _ => rfl⟩

open Classical in
/-- The first point at a place stands for the place. -/
noncomputable def place (ds : DataSet Dbl) (x : Nat) : Nat := Nat.find (exists_samePlace ds x)

theorem place_iff {ds : DataSet Dbl} {x y : Nat} : place ds x = place ds y ↔ ds.SamePlace x y := by
  classical
  have hs : ∀ z, ds.SamePlace (place ds z) z := fun z => Nat.find_spec (exists_samePlace ds z)
  refine ⟨fun h => (hs x).symm.trans (h ▸ hs y), fun h => ?_⟩
  have e : (fun z => ds.SamePlace z x) = fun z => ds.SamePlace z y := funext fun z => propext ⟨fun hz => hz.trans h, fun hz => hz.trans h.symm⟩
  refine le_antisymm (Nat.find_le ?_) (Nat.find_le ?_)
  · exact (hs y).trans h.symm
  · exact (hs x).trans h

theorem samePlace_eudist {ds : DataSet Dbl} {x y : Nat} : ds.SamePlace x y ↔ ds.eudist x y = 0 := by
  rw [← sq_eq_zero_iff, eudist_sq, Finset.sum_eq_zero_iff_of_nonneg fun _ _ => sq_nonneg _]
  refine forall_congr' fun t => ?_
  rw [Finset.mem_range, sq_eq_zero_iff, sub_eq_zero]

theorem place_far (ds : DataSet Dbl) : ds.FarGroups (place ds) := by
  intro q x y _ _ _ h1 h2
  rw [samePlace_eudist.1 (place_iff.1 h1).symm, mul_zero]
  exact lt_of_le_of_ne (eudist_nonneg _ _ _) fun h => h2 (place_iff.2 (samePlace_eudist.2 h.symm)).symm

theorem place_large {ds : DataSet Dbl} {o : Options Dbl} {P : List Nat} {lab c : Nat → Nat} (h : ds.EnoughCopies o P lab c) : GroupsLarge ds.n o P lab c (place ds) := by
  have e : ∀ q, groupOf ds.n (place ds) q = ds.copiesOf q := fun q => List.filter_congr fun x _ => decide_eq_decide.2 place_iff
  intro q hq
  rw [e]
  exact h q hq

/-- C93 for all seed methods except batches. No radius is used for seeds. When there are enough copies of each primary point, two points of a cluster are at the same place, as far as there are primary points at their places. -/
theorem C93_copies {cfg : Cfg} {ds : DataSet Dbl} (hmod : ds.Moderate) {o : Options Dbl} {ob : ClObj} (hn : ob.cl.n = ds.n) {P : List Nat} {lab c : Nat → Nat} {w : World}
    (hc : CallOk cfg o ob P lab c w) {m : SeedMethod} (hm : o.seedMethod = .method m) (hR : o.seedRadius = .noRadius) (hcop : ds.EnoughCopies o P lab c) :
    OnSuccess cfg (builtinSpi (some ds)) o ob w fun k b => ∀ i, i < k → ∀ u ∈ members b ds.n i, ∀ v ∈ members b ds.n i, (∃ p ∈ P, ds.SamePlace p u) → (∃ p ∈ P, ds.SamePlace p v) →
      ds.SamePlace u v := by
  obtain ⟨e, p, w', h1, h2⟩ := C79_not_mixed hmod hn hc hm hR (place_far ds) (place_large hcop)
  refine ⟨e, p, w', h1, fun he => ?_⟩
  obtain ⟨hfl, cl, b, h3, h4, h5, h6, h7, h8⟩ := h2 he
  refine ⟨hfl, cl, b, h3, h4, h5, h6, h7, fun i hi u hu v hv ⟨p, hp, hpu⟩ ⟨q, hq, hqv⟩ => ?_⟩
  exact place_iff.1 (h8 i hi u hu v hv ⟨p, hp, place_iff.2 hpu⟩ ⟨q, hq, place_iff.2 hqv⟩)

/-- C93 for batches. -/
theorem C93_copies_batches {cfg : Cfg} {ds : DataSet Dbl} (hmod : ds.Moderate) {o : Options Dbl} {ob : ClObj} (hn : ob.cl.n = ds.n) {P : List Nat} {lab c : Nat → Nat} {w : World}
    (hc : CallOk cfg o ob P lab c w) (hm : o.seedMethod = .batches) (hfit : BatchFits o ds.n) (hcop : ds.EnoughCopies o P lab c) :
    OnSuccess cfg (builtinSpi (some ds)) o ob w fun k b => ∀ i, i < k → ∀ u ∈ members b ds.n i, ∀ v ∈ members b ds.n i, ds.SamePlace u v := by
  obtain ⟨e, p, w', h1, h2⟩ := C79_not_mixed_batches hmod hn hc hm hfit (place_far ds) (place_large hcop)
  refine ⟨e, p, w', h1, fun he => ?_⟩
  obtain ⟨hfl, cl, b, h3, h4, h5, h6, h7, h8⟩ := h2 he
  exact ⟨hfl, cl, b, h3, h4, h5, h6, h7, fun i hi u hu v hv => place_iff.1 (h8 i hi u hu v hv)⟩

/-- The computed distance of copies is zero, exactly, as is the squared distance that the library computes first, without conditions on the range of values. -/
theorem C93_distance {ds : DataSet Dbl} (hf : ds.FiniteCoords) {x y : Nat} (hx : x < ds.n) (hy : y < ds.n) (h : ds.SamePlace x y) : sqDist ds x y = some (.fin 0) ∧ ds.dist x y = .fin 0 := by
  have h0 : ds.sqd x y = .fin 0 := by
    unfold DataSet.sqd
    have : ∀ l : List Nat, (∀ t ∈ l, t < ds.dims) → l.foldl (fun acc t => FloatOps.add acc (FloatOps.mul (FloatOps.sub (ds.coord x t) (ds.coord y t)) (FloatOps.sub (ds.coord x t) (ds.coord y t)))) (Dbl.fin 0) = .fin 0 := by
      intro l hl
      induction l with
      | nil => rfl
      | cons t l ih =>
        have ht := hl t List.mem_cons_self
        rw [List.foldl_cons, hf.coord_eq hx ht, hf.coord_eq hy ht, h t ht, sq_diff_same, show FloatOps.add (Dbl.fin 0) (.fin 0) = .fin 0 from Dbl.stable_zero]
        exact ih fun t ht => hl t (List.mem_cons_of_mem _ ht)
    exact this _ fun t ht => List.mem_range.1 ht
  refine ⟨by rw [sqDist_eq hf.complete hx hy, h0], ?_⟩
  unfold DataSet.dist
  rw [h0]
  show (if (0 : ℝ) < 0 then Dbl.nan else Dbl.round (Real.sqrt 0)) = _
  rw [if_neg (lt_irrefl _), Real.sqrt_zero, Dbl.round_zero]

theorem RelErr.eq_zero {ε : ℝ} {d : Dbl} (h : RelErr ε 0 d) : d = .fin 0 := by
  obtain ⟨y, rfl, hy⟩ := h
  rw [mul_zero, sub_zero] at hy
  rw [abs_eq_zero.1 (le_antisymm hy (abs_nonneg _))]

/-- C93 for the statistics: when two points of a cluster are always at the same place, as after the calls above, the reported sum of distances and the reported largest distance are exactly zero. -/
theorem C93_stats {cfg : Cfg} {ds : DataSet Dbl} (hm : ds.Moderate) {ob : ClObj} {w w' : World} (h : StatsOk cfg ob w) (hn : ob.cl.n = ds.n) (hk : 0 < ob.cl.numClusters) {s : Stats Dbl} {lb : Blk Int}
    (hrun : getStats cfg (builtinSpi (some ds)) (some ob) true w = some ((.ok, some s), w')) (hlb : ob.cl.label = some lb) (hN : (pairsWithin cfg lb.buf ds.n).length ≤ 2 ^ 51)
    (hsame : ∀ i, i < ob.cl.numClusters → ∀ u ∈ members lb.buf ds.n i, ∀ v ∈ members lb.buf ds.n i, ds.SamePlace u v) : s.sumDists = .fin 0 ∧ s.maxDist = .fin 0 := by
  obtain ⟨t, -, hE, hS, hT⟩ := C78_stats hm h hn hrun hlb hN
  have hz : ∀ i j, SameCluster lb.buf ds.n ob.cl.numClusters i j → ds.eudist i j = 0 := fun i j ⟨hi, hj, c, hc, bi, bj⟩ =>
    samePlace_eudist.1 (hsame c hc i (mem_members.2 ⟨hi, bi⟩) j (mem_members.2 ⟨hj, bj⟩))
  have h1 : t.sumDists = 0 := by
    rw [hS]
    refine List.sum_eq_zero fun x hx => ?_
    obtain ⟨p, hp, rfl⟩ := List.mem_map.1 hx
    obtain ⟨hp, hq⟩ := List.mem_filter.1 hp
    obtain ⟨q1, q2⟩ := of_decide_eq_true hq
    obtain ⟨m1, m2⟩ := mem_upperPairs_mem hp
    have m1 := List.mem_range.1 m1
    rcases h.labels hk lb hlb p.1 (hn ▸ m1) with hu | ⟨c, hc, hb⟩
    · exact absurd hu q1
    · exact hz _ _ ⟨m1, List.mem_range.1 m2, c, hc, hb, q2 ▸ hb⟩
  have h2 : t.maxDist = 0 := by
    by_cases hp : ∃ i j, i ≠ j ∧ SameCluster lb.buf ds.n ob.cl.numClusters i j
    · obtain ⟨i, j, hij, hs, hle⟩ := hE.max_is hp
      have a := of_decide_eq_true (hE.le_max i j hij hs)
      have b := of_decide_eq_true hle
      rw [hz i j hs] at a b
      exact le_antisymm b a
    · exact hE.max_zero hp
  exact ⟨(h1 ▸ hT.sumDists).eq_zero, (h2 ▸ hT.maxDist).eq_zero⟩

/-- The converse needs a condition on the range of values, as `DataSet.Moderate` has: points that are not at the same place, 2^-600 apart, have the computed distance zero. -/
theorem C93_fails_underflow : ∃ ds : DataSet Dbl, ds.FiniteCoords ∧ ds.n = 3 ∧ ¬ ds.SamePlace 0 1 ∧ sqDist ds 0 1 = some (.fin 0) ∧ ds.dist 0 1 = .fin 0 := by
  refine ⟨threeDbl (2 ^ (-600 : ℤ)) (2 ^ (-550 : ℤ)), threeDbl_finite _ _, rfl, fun h => ?_, ?_⟩
  · have h0 := h 0 (show 0 < 1 by omega)
    rw [(threeDbl_coord _ _).1, (threeDbl_coord _ _).2.1] at h0
    exact (zpow2_pos (-600)).ne h0
  · have h0 : nearest53 ((2 : ℝ) ^ (2 * -600 : ℤ)) = 0 := by
      unfold nearest53
      rw [lastBit_zpow, max_eq_right (by norm_num), roundEven_unique (n := 0), Int.cast_zero, zero_mul]
      left
      rw [Int.cast_zero, sub_zero, ← zpow_sub₀ (by norm_num), abs_of_pos (zpow2_pos _)]
      calc (2 : ℝ) ^ (2 * -600 - -1074 : ℤ) ≤ 2 ^ (-2 : ℤ) := zpow_le_zpow_right₀ (by norm_num) (by norm_num)
        _ < 1 / 2 := by norm_num
    have h1 : (threeDbl (2 ^ (-600 : ℤ)) (2 ^ (-550 : ℤ))).sqd 0 1 = .fin 0 := by
      rw [threeDbl_sqd (by omega) (threeDbl_coord _ _).2.1 (by norm_num) (by norm_num), round_eq_fin (by rw [h0, abs_zero]; exact Dbl.maxDouble_pos.le), h0,
        show FloatOps.add (Dbl.fin 0) (.fin 0) = .fin 0 from Dbl.stable_zero]
    refine ⟨by rw [sqDist_eq (threeDbl_finite _ _).complete (show 0 < 3 by omega) (show 1 < 3 by omega), h1], ?_⟩
    unfold DataSet.dist
    rw [h1]
    show (if (0 : ℝ) < 0 then Dbl.nan else Dbl.round (Real.sqrt 0)) = _
    rw [if_neg (lt_irrefl _), Real.sqrt_zero, Dbl.round_zero]

/-! ### Six points at two places -/

theorem twice_copies (lab c : Nat → Nat) {o : Options Dbl} (hS : o.sizeConstraint = 2) (ht : o.numTypes = 0) : (intLine [4, -9, 4, -9, 4, -9]).EnoughCopies o (List.range 6) lab c := by
  intro q hq
  refine ⟨?_, fun h => by omega⟩
  have hq : q < 6 := List.mem_range.1 hq
  have e : (intLine [4, -9, 4, -9, 4, -9]).copiesOf q = (List.range 6).filter fun x => x % 2 = q % 2 := by
    refine List.filter_congr fun x hx => decide_eq_decide.2 ?_
    have hx : x < 6 := List.mem_range.1 hx
    rw [samePlace_eudist, intLine_eudist _ hx hq]
    have := (by decide : ∀ q < 6, ∀ x < 6, |([4, -9, 4, -9, 4, -9] : List ℤ).getD x 0 - ([4, -9, 4, -9, 4, -9] : List ℤ).getD q 0| = 0 ↔ x % 2 = q % 2) q hq x hx
    exact_mod_cast this
  rw [e, hS]
  exact (by decide : ∀ q < 6, 2 ≤ ((List.range 6).filter fun x => x % 2 = q % 2).length) q hq

example (um : UnassignedMethod) (pr : RadiusMethod) : OnSuccess sampleCfg (builtinSpi (some (intLine [4, -9, 4, -9, 4, -9]))) (dblOpts um pr) lineObj (sampleWorld [5])
    fun k b => ∀ i, i < k → ∀ u ∈ members b 6 i, ∀ v ∈ members b 6 i, (∃ p ∈ List.range 6, (intLine [4, -9, 4, -9, 4, -9]).SamePlace p u) → (∃ p ∈ List.range 6, (intLine [4, -9, 4, -9, 4, -9]).SamePlace p v) →
      (intLine [4, -9, 4, -9, 4, -9]).SamePlace u v :=
  C93_copies (m := .lexical) (intLine_moderate (by decide)) rfl (dbl_callOk rfl rfl rfl rfl rfl) rfl rfl (twice_copies _ _ rfl rfl)

example : OnSuccess sampleCfg (builtinSpi (some (intLine [4, -9, 4, -9, 4, -9]))) { (dblOpts .anyNeighbor .useSeedRadius) with seedMethod := .batches, batchSize := 3 } lineObj (sampleWorld [5])
    fun k b => ∀ i, i < k → ∀ u ∈ members b 6 i, ∀ v ∈ members b 6 i, (intLine [4, -9, 4, -9, 4, -9]).SamePlace u v :=
  C93_copies_batches (intLine_moderate (by decide)) rfl (dbl_callOk rfl rfl rfl rfl rfl) rfl (by show 2 * 3 < 2 ^ 32; decide) (twice_copies _ _ rfl rfl)

example : sqDist (intLine [4, -9, 4, -9, 4, -9]) 0 2 = some (.fin 0) ∧ (intLine [4, -9, 4, -9, 4, -9]).dist 0 2 = .fin 0 := C93_distance (intLine_finite _) (by decide) (by decide) (samePlace_eudist.2 (by
  rw [intLine_eudist _ (by decide) (by decide)]
  simp))

/-- Points at three places, with the clusters {0, 2, 3}, {4} and {1, 5}. -/
example : ∃ s w', getStats sampleCfg (builtinSpi (some (intLine [4, -9, 4, 4, 7, -9]))) (some (hiObj 6 4 (some ⟨6, statLabels⟩))) true (sampleWorld [5, 6]) = some ((.ok, some s), w') ∧ s.sumDists = .fin 0 ∧ s.maxDist = .fin 0 := by
  have hok : StatsOk sampleCfg (hiObj 6 4 (some ⟨6, statLabels⟩)) (sampleWorld [5, 6]) := statsOk_sample (by decide +kernel)
  obtain ⟨e, s, w', lb, h1, h2, -, h3⟩ := C20_stats (builtinMatrix (intLine_finite [4, -9, 4, 4, 7, -9]).complete) hok (by decide +kernel) (by decide) rfl rfl
  have hnf : (sampleWorld [5, 6]).NoFail := fun _ _ => rfl
  rcases h3 with ⟨rfl, -⟩ | ⟨-, -, ⟨-, h3⟩ | ⟨-, h3 | h3⟩⟩
  · cases h2
    have hp : pairsWithin sampleCfg statLabels 6 = [(0, 2), (0, 3), (1, 5), (2, 3)] := by decide +kernel
    refine ⟨s, w', h1, C93_stats (intLine_moderate (by decide)) hok rfl (by decide) h1 rfl (by rw [show (intLine [4, -9, 4, 4, 7, -9]).n = 6 from rfl, hp]; norm_num) fun i hi u hu v hv => ?_⟩
    have hu' : u < 6 := (mem_members.1 hu).1
    have hv' : v < 6 := (mem_members.1 hv).1
    rw [samePlace_eudist, intLine_eudist _ hu' hv']
    have := (by decide +kernel : ∀ i < 4, ∀ u ∈ members statLabels 6 i, ∀ v ∈ members statLabels 6 i, |([4, -9, 4, 4, 7, -9] : List ℤ).getD u 0 - ([4, -9, 4, 4, 7, -9] : List ℤ).getD v 0| = 0) i hi u hu v hv
    exact_mod_cast this
  · exact absurd hnf h3
  · exact absurd hnf h3
  · exact h3.elim

end Scc
