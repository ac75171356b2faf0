/-
C79: searches, groups, hierarchical clustering and the estimated radius with the arithmetic of `double`. `FarGroups` and `CopiesBelow` are in Spec/DoubleMore.lean, `RelErr` is in Spec/StatsDouble.lean.
-/
import Verif.Spec.DoubleMore
import Verif.Proofs.DoubleRadius
import Verif.Props.Double
import Verif.Props.Separated

set_option linter.unusedSimpArgs false
set_option linter.unusedVariables false

namespace Scc

/-- C79, farthest points. For each query, the point that is stored is the farthest one up to a factor of `1 + 2^-31`, and the distance that is stored is right up to the same factor. -/
theorem C79_farthest {ds : DataSet Dbl} (hm : ds.Moderate) {search queries : Option Arr} {L Q : List Nat} {outI : Buf Nat} {outD : Buf Dbl} {w : World}
    (hs : ArrHolds search L) (hq : ArrHolds queries Q) (hL : ∀ x ∈ L, x < ds.n) (hQ : ∀ x ∈ Q, x < ds.n) (hne : L ≠ []) (hnd : L.Nodup)
    (hsl : ∀ i ∈ arrIds search, i ∈ w.live) (hql : ∀ i ∈ arrIds queries, i ∈ w.live) (hI : Q.length ≤ outI.len) (hD : Q.length ≤ outD.len) :
    ∃ r w', maxOnce (builtinSpi (some ds)) L.length search Q.length queries outI outD w = some (r, w') ∧ w'.live = w.live ∧
      match r with
      | none => ∃ i c, w.fails i c = true
      | some (oI, oD) => ∀ (i q : Nat), Q[i]? = some q → ∃ x ∈ L, oI.get i = some x ∧ (∀ y ∈ L, ds.eudist q y ≤ nearFactor * ds.eudist q x) ∧
          ∃ z, oD.get i = some (.fin z) ∧ z ≤ nearFactor * ds.eudist q x ∧ ds.eudist q x ≤ nearFactor * z := by
  obtain ⟨r, w', h1, h2, h3⟩ := C24_max_dist Dbl.laws hm.finite.complete hs hq hL hQ hne hnd hsl hql (fun q hq' x hx => hm.finite.metric.sqnum q x (hQ q hq') (hL x hx)) hI hD
  refine ⟨r, w', h1, h2, ?_⟩
  match r, h3 with
  | none, h3 => exact h3
  | some (oI, oD), h3 =>
    intro i q hiq
    obtain ⟨x, ⟨hx, hfar⟩, h4, h5⟩ := h3.1 i q hiq
    have hqn := hQ q (List.mem_of_getElem? hiq)
    obtain ⟨z, h6, -, h7, h8⟩ := dist_near hm hqn (hL x hx)
    exact ⟨x, hx, h4, fun y hy => noFarther_near hm hqn (hL y hy) (hL x hx) (hfar y hy).1, z, by rw [h5, h6], h7, h8⟩

/-- C79, searches with a radius `r`. The queries that are answered have `k` answers that are at most `1 + 2^-31` times as far away as `r`, and as points that are not among the answers. A query
that is not answered has fewer than `k` points that are closer than `r` by a factor of at least `1 + 2^-31`. -/
theorem C79_radius_search {ds : DataSet Dbl} (hm : ds.Moderate) {search queries : Option Arr} {L Q : List Nat} {k : Nat} {r : ℝ} (hr1 : 2 ^ (-500 : ℤ) ≤ r) (hr2 : r ≤ 2 ^ (500 : ℤ))
    {oq : OutQ} {nn : Buf Nat} {w : World} (h : SearchInput ds search L queries Q k oq nn w) :
    ∃ res w', searchOnce (builtinSpi (some ds)) L.length search Q.length queries k true (.fin r) oq nn w = some (res, w') ∧ w'.live = w.live ∧
      match res with
      | none => ∃ i c, w.fails i c = true
      | some out => ∃ answered : Nat → Bool,
          out.numOk = (Q.filter answered).length ∧ (oq ≠ .null → ∀ (i q : Nat), (Q.filter answered)[i]? = some q → out.outQ.get i = some q) ∧
          (∀ (i q : Nat), (Q.filter answered)[i]? = some q → ∃ l, out.Neighbors k i l ∧ l.Nodup ∧ (∀ x ∈ l, x ∈ L ∧ ds.eudist q x ≤ nearFactor * r) ∧
            ∀ x ∈ L, x ∉ l → ∀ y ∈ l, ds.eudist q y ≤ nearFactor * ds.eudist q x) ∧
          ∀ q ∈ Q, answered q = false → ∀ l : List Nat, l.Nodup → (∀ x ∈ l, x ∈ L ∧ nearFactor * ds.eudist q x ≤ r) → l.length < k := by
  have hq := h.queryRange
  have hL := h.searchRange
  have hr0 : 0 ≤ r := (zpow2_pos _).le.trans hr1
  have hmid : Mid 510 r := (show Mid 500 r from Or.inr (by rw [abs_of_nonneg hr0]; exact ⟨hr1, hr2⟩)).mono (by norm_num)
  have hsq := (radius_sq hmid).1
  have hwin : ∀ q ∈ Q, ∀ x ∈ L, (FloatOps.le (ds.sqd q x) (FloatOps.mul (Dbl.fin r) (.fin r)) = true ↔ ds.Within q x (.fin r)) := by
    intro q hq' x hx
    obtain ⟨a, ha, -⟩ := sqd_error hm (hq q hq') (hL x hx)
    unfold DataSet.Within
    rw [hsq, ha, Dbl.le_fin]
    constructor
    · intro h1
      by_contra h2
      rw [Bool.not_eq_false, dbl_lt_fin] at h2
      exact absurd h1 (not_le.2 h2)
    · exact le_of_not_lt_fin
  obtain ⟨res, w', h1, h2, h3⟩ := C22_radius_search (radius := .fin r) Dbl.laws h (fun q hq' x hx => (hm.finite.metric.sqnum q x (hq q hq') (hL x hx)).1) (by
    rw [hsq]; unfold IsNum; rw [Dbl.le_fin])
  refine ⟨res, w', h1, h2, ?_⟩
  cases res with
  | none => exact h3
  | some out =>
    obtain ⟨h4, h5, h6⟩ := h3
    refine ⟨fun q => decide (k ≤ withinRadius ds L (.fin r) q), h4, h5, fun i q hiq => ?_, fun q hq' hno l hnd hl => ?_⟩
    · obtain ⟨l, g1, g2, g3, g4, g5⟩ := h6 i q hiq
      have hqQ : q ∈ Q := (List.mem_filter.1 (List.mem_of_getElem? hiq)).1
      refine ⟨l, g1, g2, fun x hx => ⟨(g3 x hx).1, within_le hm (hq q hqQ) (hL x (g3 x hx).1) hr0 hmid ((hwin q hqQ x (g3 x hx).1).1 (g3 x hx).2)⟩,
        fun x hx hxl y hy => noFarther_near hm (hq q hqQ) (hL y (g3 y hy).1) (hL x hx) (g5 x hx hxl y hy).1⟩
    · have h7 := of_decide_eq_false hno
      have hsub : l ⊆ L.filter fun x => FloatOps.le (ds.sqd q x) (FloatOps.mul (Dbl.fin r) (.fin r)) := fun x hx =>
        List.mem_filter.2 ⟨(hl x hx).1, (hwin q hq' x (hl x hx).1).2 (within_of_le hm (hq q hq') (hL x (hl x hx).1) hmid (hl x hx).2)⟩
      have h8 := (List.subperm_of_subset hnd hsub).length_le
      rw [← List.countP_eq_length_filter] at h8
      unfold withinRadius at h7
      omega

/-- C79, groups. Without seed radius, if the data fall into groups that are far from each other (by a factor of more than `1 + 2^-31`) and each group with a primary point is large enough for a
cluster, then no cluster mixes two such groups, in spite of rounding. -/
theorem C79_not_mixed {cfg : Cfg} {ds : DataSet Dbl} (hmod : ds.Moderate) {o : Options Dbl} {ob : ClObj} (hn : ob.cl.n = ds.n) {P : List Nat} {lab c : Nat → Nat} {w : World}
    (hc : CallOk cfg o ob P lab c w) {m : SeedMethod} (hm : o.seedMethod = .method m) (hR : o.seedRadius = .noRadius) {g : Nat → Nat} (hsep : ds.FarGroups g) (hbig : GroupsLarge ds.n o P lab c g) :
    OnSuccess cfg (builtinSpi (some ds)) o ob w fun k b => NotMixed ds.n P g k b := by
  have h := C64_not_mixed (le := fun q x y => ds.eudist q x ≤ nearFactor * ds.eudist q y) (by rw [hn]; exact doubleSpi hmod) hc hm hR
    (g := g) (by rw [hn]; exact fun q x y hq hx hy h1 h2 => not_le.2 (hsep q x y hq hx hy h1 h2)) (by rw [hn]; exact hbig)
    fun q _ x _ => le_mul_of_one_le_left (eudist_nonneg _ _ _) nearFactor_one
  rwa [hn] at h

/-- C79 for batches. -/
theorem C79_not_mixed_batches {cfg : Cfg} {ds : DataSet Dbl} (hmod : ds.Moderate) {o : Options Dbl} {ob : ClObj} (hn : ob.cl.n = ds.n) {P : List Nat} {lab c : Nat → Nat} {w : World}
    (hc : CallOk cfg o ob P lab c w) (hm : o.seedMethod = .batches) (hfit : BatchFits o ds.n) {g : Nat → Nat} (hsep : ds.FarGroups g) (hbig : GroupsLarge ds.n o P lab c g) :
    OnSuccess cfg (builtinSpi (some ds)) o ob w fun k b => ∀ i, i < k → ∀ u ∈ members b ds.n i, ∀ v ∈ members b ds.n i, g u = g v := by
  have h := C64_not_mixed_batches (le := fun q x y => ds.eudist q x ≤ nearFactor * ds.eudist q y) (by rw [hn]; exact doubleSpi hmod) hc hm (by rw [hn]; exact hfit)
    (fun _ s _ x _ y _ h => by
      have h0 : ds.eudist s s = 0 := (eudist_metric ds).self s
      rw [h0, mul_zero] at h
      exact h.trans (mul_nonneg (zero_le_one.trans nearFactor_one) (eudist_nonneg _ _ _)))
    (g := g) (by rw [hn]; exact fun q x y hq hx hy h1 h2 => not_le.2 (hsep q x y hq hx hy h1 h2)) (by rw [hn]; exact hbig)
  rwa [hn] at h

/-- C79, pairs. With clusters of at least two points, inwards updating and "any neighbour", two points of a cluster are at most `2 (1 + 2^-31) D` apart, when every point has another point within `D`. -/
theorem C79_inwards_pairs {cfg : Cfg} {ds : DataSet Dbl} (hmod : ds.Moderate) {o : Options Dbl} {ob : ClObj} (hn : ob.cl.n = ds.n) {P : List Nat} {lab c : Nat → Nat} {w : World}
    (hc : CallOk cfg o ob P lab c w) (hm : o.seedMethod = .method .inwardsUpdating) (hS : o.sizeConstraint = 2) (ht : o.numTypes < 2) (hp : o.primary = none) (hR : o.seedRadius = .noRadius)
    (hum : o.primaryMethod = .anyNeighbor) (hum2 : o.secondaryMethod = .ignore) {D : ℝ} (hD : ∀ v, v < ds.n → ∃ x, x < ds.n ∧ x ≠ v ∧ ds.eudist v x ≤ D) :
    OnSuccess cfg (builtinSpi (some ds)) o ob w fun k b => ∀ i, i < k → ∀ u ∈ members b ds.n i, ∀ v ∈ members b ds.n i, ds.eudist u v ≤ 2 * (1 + 2 ^ (-31 : ℤ)) * D := by
  have h := C75_inwards_pairs (eudist_metric ds) nearFactor_one (by rw [hn]; exact doubleSpi hmod) hc hm hS ht hp hR hum hum2 (D := D) (by rw [hn]; exact hD)
  rwa [hn] at h

/-! ### Hierarchical clustering -/

/-- Fewer than `2 S` copies of a point mean that the points are well spread. -/
theorem spread_of_copies {ds : DataSet Dbl} (hm : ds.Moderate) {S : Nat} (h : ds.CopiesBelow (2 * S)) {O : List Nat} (hO : ∀ x ∈ O, x < ds.n) (hnd : O.Nodup) : Spread S ds.dist O := by
  intro c hc
  have hz : ∀ x ∈ O.filter fun x => FloatOps.le (ds.dist c x) (ds.dist c c), x < ds.n ∧ ds.eudist c x = 0 := by
    intro x hx
    obtain ⟨hx, hle⟩ := List.mem_filter.1 hx
    obtain ⟨y, hy, hy0, hy1, -⟩ := dist_near hm (hO c hc) (hO c hc)
    obtain ⟨z, hz, -, -, hz2⟩ := dist_near hm (hO c hc) (hO x hx)
    have h0 : ds.eudist c c = 0 := (eudist_metric ds).self c
    rw [h0, mul_zero] at hy1
    rw [hy, hz, Dbl.le_fin] at hle
    refine ⟨hO x hx, le_antisymm (hz2.trans ?_) (eudist_nonneg _ _ _)⟩
    exact mul_nonpos_of_nonneg_of_nonpos (zero_le_one.trans nearFactor_one) (hle.trans hy1)
  refine h _ (hnd.filter _) (fun x hx => (hz x hx).1) fun x hx y hy t ht => ?_
  have hsame : ∀ x, ds.eudist c x = 0 → ds.realCoord c t = ds.realCoord x t := by
    intro x hx
    have hsq := eudist_sq ds c x
    rw [hx, zero_pow (by norm_num)] at hsq
    have := (Finset.sum_eq_zero_iff_of_nonneg (fun i _ => sq_nonneg _)).1 hsq.symm t (Finset.mem_range.2 ht)
    exact sub_eq_zero.1 (pow_eq_zero_iff (by norm_num) |>.1 this)
  rw [← hsame x (hz x hx).2, ← hsame y (hz y hy).2]

/-- C79, hierarchical clustering. If fewer than `2 S` points are at the same place, every cluster has at least `S` and fewer than `2 S` points, and every point has a label. This is for calls that
start from an empty clustering. -/
theorem C79_hierarchical_sizes {cfg : Cfg} {ds : DataSet Dbl} (hmod : ds.Moderate) {hi : HiEnv Dbl} (hhi : hi.Ok) {S : Nat} {ob : ClObj} (hn : ob.cl.n = ds.n) (batch : Bool) {w : World}
    (hc : HiCallOk cfg S ob w) (he : ob.cl.numClusters = 0) (hcop : ds.CopiesBelow (2 * S)) :
    HiOnSuccess cfg hi (builtinSpi (some ds)) S batch ob w fun k b => HiPartition S ds.n k b := by
  have hsp := spread_of_copies hmod hcop (O := List.range ds.n) (fun x hx => List.mem_range.1 hx) List.nodup_range
  have h := C15_partial hhi (by rw [hn]; exact hmod.finite.metric.laws) (by rw [hn]; exact builtinMetric hmod.finite.metric) batch hc he (by rw [hn]; exact hsp)
  rwa [hn] at h

/-- C79, hierarchical clustering of two groups. If the points fall into two groups of at least `S` points each that are far from each other (by a factor of more than `1 + 2^-31`), no cluster has
points of both groups. This is for calls without batches that start from an empty clustering. -/
theorem C79_hierarchical_groups {cfg : Cfg} {ds : DataSet Dbl} (hmod : ds.Moderate) {hi : HiEnv Dbl} (hhi : hi.Ok) {S : Nat} {ob : ClObj} (hn : ob.cl.n = ds.n) {w : World}
    (hc : HiCallOk cfg S ob w) (he : ob.cl.numClusters = 0) (hcop : ds.CopiesBelow (2 * S)) {g : Nat → Bool} (hsep : ds.FarGroups g)
    (hlarge : ∀ b, S ≤ ((List.range ds.n).filter fun x => g x = b).length) :
    HiOnSuccess cfg hi (builtinSpi (some ds)) S false ob w fun k b => ∀ i, i < k → ∀ u ∈ members b ds.n i, ∀ v ∈ members b ds.n i, g u = g v := by
  have hsp := spread_of_copies hmod hcop (O := List.range ds.n) (fun x hx => List.mem_range.1 hx) List.nodup_range
  have hlt : ∀ q x y, q < ds.n → x < ds.n → y < ds.n → g x = g q → g y ≠ g q → FloatOps.le (ds.dist q y) (ds.dist q x) = false := by
    intro q x y hq hx hy h1 h2
    by_contra hle
    rw [Bool.not_eq_false] at hle
    exact absurd (dist_le_near hmod hq hy hx hle) (not_le.2 (hsep q x y hq hx hy h1 h2))
  have hsym : ∀ p q, p < ds.n → q < ds.n → ds.dist p q = ds.dist q p := fun p q hp hq => ((C76_laws hmod.finite).2.1 p q hp hq).1
  have hg : TwoGroups S ds.dist (List.range ds.n) g := by
    refine ⟨hlarge, fun q hq x hx y hy h1 h2 => ?_, fun q hq x hx y hy h1 h2 => ?_⟩ <;> rw [List.mem_range] at hq hx hy
    · exact hlt q x y hq hx hy h1 h2
    · rw [hsym y q hy hq, hsym x q hx hq]; exact hlt q x y hq hx hy h1 h2
  have h := C66_from_empty hhi (by rw [hn]; exact hmod.finite.metric.laws) (by rw [hn]; exact builtinMetric hmod.finite.metric) hc he (by rw [hn]; exact hsp) (by rw [hn]; exact hg)
  rwa [hn] at h
where
  dist_le_near {ds : DataSet Dbl} (h : ds.Moderate) {q x y : Nat} (hq : q < ds.n) (hx : x < ds.n) (hy : y < ds.n) (hle : FloatOps.le (ds.dist q x) (ds.dist q y) = true) :
      ds.eudist q x ≤ nearFactor * ds.eudist q y := by
    obtain ⟨a, ha, ha0, -, ha1, ha2⟩ := dist_error h hq hx
    obtain ⟨b, hb, hb0, -, hb1, hb2⟩ := dist_error h hq hy
    rw [ha, hb, Dbl.le_fin] at hle
    exact le_of_sq_error (m := ds.dims + 5) (eudist_nonneg _ _ _) (by have := h.dims; omega) (ha1.trans ((pow_le_pow_left₀ ha0 hle 2).trans hb2))

/-! ### The estimated radius -/

/-- C79, estimated radius. The radius estimated from the seeds is the mean over the sampled seeds of the mean Euclidean distance to their neighbours, with a relative error of at most
`(d + 2 n + 11) 2^-52` for `n` points in `d` dimensions. If the mean `R` is between 2^-500 and 2^500, a point that joins the cluster of a seed is within `(1 + 2^-31) (1 + ε) R` of it, and a primary point
that is left unassigned has no seed within `(1 - ε) R / (1 + 2^-31)`, where `ε` is this relative error. -/
theorem C79_estimated_radius {cfg : Cfg} {ds : DataSet Dbl} (hmod : ds.Moderate) (hsize : ds.n ≤ 2 ^ 49) {o : Options Dbl} {ob : ClObj} (hn : ob.cl.n = ds.n) {P : List Nat} {lab c : Nat → Nat} {w : World}
    (hc : CallOk cfg o ob P lab c w) {m : SeedMethod} (hm : o.seedMethod = .method m) (hum : o.primaryMethod = .closestSeed) (hr : o.primaryRadius = .useEstimated) (hum2 : o.secondaryMethod = .ignore)
    {ε : ℝ} (hε : ε = (ds.dims + 2 * ds.n + 11) * 2 ^ (-52 : ℤ)) :
    OnSuccess cfg (builtinSpi (some ds)) o ob w fun k b => ∃ N seeds R, SeedClusters cfg (NearestUpTo nearFactor ds.eudist ds.Within) ds.n o P lab c k b N seeds ∧
      R = seedEstimate ds.eudist N seeds ∧ 0 < R ∧ RelErr ε R (seedEstimate ds.dist N seeds) ∧
      (2 ^ (-500 : ℤ) ≤ R → R ≤ 2 ^ (500 : ℤ) → ∀ v ∈ P, (∀ i, ¬ CapturedBy N seeds i v) →
        (∀ i, i < k → v ∈ members b ds.n i → ∃ s, seeds[i]? = some s ∧ ds.eudist v s ≤ nearFactor * ((1 + ε) * R)) ∧
        (Unassigned cfg b v → ∀ s ∈ seeds, (1 - ε) * R < nearFactor * ds.eudist v s)) := by
  obtain ⟨e, p, w', h1, h2⟩ := C43_estimated_radius (le := fun q x y => ds.eudist q x ≤ nearFactor * ds.eudist q y) (by rw [hn]; exact doubleSpi hmod) hc hm hum hr hum2
  refine ⟨e, p, w', h1, fun he => ?_⟩
  obtain ⟨hfl, cl, b, g1, g2, g3, g4, g5, N, seeds, hS, ⟨hne, hmem⟩, hpos, hv⟩ := h2 he
  rw [hn] at hS hv
  refine ⟨hfl, cl, b, g1, g2, g3, g4, g5, N, seeds, _, hS, rfl, ?_⟩
  have hseeds : seeds ≠ [] := by
    rintro rfl
    exact hne rfl
  have hround := estimate_rounded hmod hsize hseeds hS.distinct.1 (N := N) fun s hs => by
    obtain ⟨i, hi⟩ := List.mem_iff_getElem?.1 hs
    exact ⟨(hS.primary s hs).1, (hS.primary s hs).2.2, (List.nodup_cons.1 (hS.distinct.2 s hs)).2, fun x hx => (hS.captured i x ⟨s, hi, List.mem_cons_of_mem _ hx⟩).1⟩
  have hd := hmod.dims
  have hK : ds.dims + 2 * ds.n + 11 ≤ 2 ^ 52 := by omega
  obtain ⟨y, hy, hyR⟩ := hround.error hK
  have hε' : ((ds.dims + 2 * ds.n + 11 : Nat) : ℝ) * 2 ^ (-52 : ℤ) = ε := by rw [hε]; push_cast; rfl
  rw [hε'] at hyR
  set R := seedEstimate ds.eudist N seeds with hRdef
  have hR0 : 0 ≤ R := hround.nonneg
  have hypos : 0 < y := by
    rw [hy] at hpos
    exact dbl_lt_fin.1 hpos
  have hRpos : 0 < R := by
    rcases hR0.lt_or_eq with h | h
    · exact h
    · rw [← h, mul_zero, sub_zero] at hyR
      exact absurd (abs_nonpos_iff.1 hyR) hypos.ne'
  refine ⟨hRpos, ⟨y, hy, hyR⟩, fun hlow hhigh v hvP hcap => ?_⟩
  have hvn := hc.arrays.range v hvP
  rw [hn] at hvn
  have hmid : Mid 510 y := by
    obtain ⟨-, -, y', hy', hb1, hb2⟩ := hround
    rw [hy] at hy'
    cases hy'
    right
    rw [abs_of_pos hypos]
    constructor
    · calc (2 : ℝ) ^ (-510 : ℤ) ≤ 1 / 2 * 2 ^ (-500 : ℤ) := by
            rw [show (1 / 2 : ℝ) = 2 ^ (-1 : ℤ) by norm_num, ← zpow_add₀ (by norm_num)]
            exact zpow_le_zpow_right₀ (by norm_num) (by norm_num)
        _ ≤ (1 - roundoff) ^ (ds.dims + 2 * ds.n + 11) * R := mul_le_mul (half_le_down hK) hlow (zpow2_pos _).le (down_pos _).le
        _ ≤ y := hb1
    · calc y ≤ (1 + roundoff) ^ (ds.dims + 2 * ds.n + 11) * R := hb2
        _ ≤ 2 * 2 ^ (500 : ℤ) := mul_le_mul (up_le_two hK) hhigh hR0 (by norm_num)
        _ = 2 ^ (501 : ℤ) := by rw [show (501 : ℤ) = 1 + 500 by norm_num, zpow_add₀ (by norm_num)]; norm_num
        _ ≤ 2 ^ (510 : ℤ) := zpow_le_zpow_right₀ (by norm_num) (by norm_num)
  have hb := abs_le.1 hyR
  obtain ⟨h3, h4⟩ := hv v hvP hcap
  rw [hy] at h3 h4
  refine ⟨fun i hi hvi => ?_, fun hun s hs => ?_⟩
  · obtain ⟨s, hs, hw⟩ := h3 i hi hvi
    refine ⟨s, hs, (within_le hmod hvn (hS.primary s (List.mem_of_getElem? hs)).1 hypos.le hmid hw).trans ?_⟩
    refine mul_le_mul_of_nonneg_left ?_ (zero_le_one.trans nearFactor_one)
    rw [add_mul, one_mul]; linarith
  · by_contra hle
    rw [not_lt] at hle
    refine h4.1 hun s hs (within_of_le hmod hvn (hS.primary s hs).1 hmid (hle.trans ?_))
    rw [sub_mul, one_mul]; linarith

/-! ### The hypotheses hold for two groups of points on a line -/

/-- Points on a line with integer coordinates. -/
noncomputable def intLine (l : List ℤ) : DataSet Dbl := ⟨dataSetVersion, l.length, 1, some (Buf.ofList (l.map fun z : ℤ => Dbl.fin z))⟩

theorem intLine_get (l : List ℤ) {i : Nat} (hi : i < l.length) : (intLine l).buf.get i = some (.fin (l.getD i 0 : ℤ)) := by
  have e : (intLine l).buf = Buf.ofList (l.map fun z : ℤ => Dbl.fin z) := rfl
  rw [e, Buf.get_ofList, List.getElem?_map, List.getElem?_eq_getElem hi, List.getD_eq_getElem?_getD, List.getElem?_eq_getElem hi]
  rfl

theorem intLine_coord (l : List ℤ) {i : Nat} (hi : i < l.length) : (intLine l).realCoord i 0 = (l.getD i 0 : ℤ) := by
  have h : (intLine l).coord i 0 = .fin (l.getD i 0 : ℤ) := by
    unfold DataSet.coord
    have e : i * (intLine l).dims + 0 = i := by show i * 1 + 0 = i; omega
    rw [e, intLine_get l hi]
    rfl
  unfold DataSet.realCoord
  rw [h]

theorem intLine_finite (l : List ℤ) : (intLine l).FiniteCoords := by
  intro i hi
  have hi' : i < l.length := by have : i < l.length * 1 := hi; omega
  exact ⟨_, intLine_get l hi'⟩

theorem intLine_eudist (l : List ℤ) {i j : Nat} (hi : i < l.length) (hj : j < l.length) : (intLine l).eudist i j = ((|l.getD i 0 - l.getD j 0| : ℤ) : ℝ) := by
  have h := eudist_sq (intLine l) i j
  have h1 : (intLine l).dims = 1 := rfl
  rw [h1, Finset.sum_range_one, intLine_coord l hi, intLine_coord l hj] at h
  rw [← abs_of_nonneg (eudist_nonneg (intLine l) i j)]
  push_cast
  exact (sq_eq_sq_iff_abs_eq_abs _ _).1 h

theorem intLine_moderate {l : List ℤ} (h : ∀ i < l.length, ∀ j < l.length, |l.getD i 0 - l.getD j 0| ≤ 1000) : (intLine l).Moderate where
  finite := intLine_finite l
  dims := by show 1 ≤ 2 ^ 20; norm_num
  spread i j t hi hj ht := by
    have ht' : t = 0 := by have : t < 1 := ht; omega
    subst ht'
    rw [intLine_coord l hi, intLine_coord l hj]
    by_cases he : l.getD i 0 = l.getD j 0
    · exact Or.inl (by rw [he])
    · right
      have h1 : 1 ≤ |l.getD i 0 - l.getD j 0| := Int.one_le_abs (sub_ne_zero.2 he)
      have h2 := h i hi j hj
      have e1 : (1 : ℝ) ≤ |(l.getD i 0 : ℝ) - (l.getD j 0 : ℤ)| := by exact_mod_cast h1
      have e2 : |(l.getD i 0 : ℝ) - (l.getD j 0 : ℤ)| ≤ 1000 := by exact_mod_cast h2
      constructor
      · refine le_trans ?_ e1
        exact zpow_le_one_of_nonpos₀ (by norm_num) (by norm_num)
      · refine e2.trans ?_
        calc (1000 : ℝ) ≤ 2 ^ (10 : ℤ) := by norm_num
          _ ≤ 2 ^ (500 : ℤ) := zpow_le_zpow_right₀ (by norm_num) (by norm_num)

/-- Two groups of three points. -/
noncomputable def groupsDbl : DataSet Dbl := intLine [0, 1, 3, 20, 21, 23]

theorem groupsDbl_moderate : groupsDbl.Moderate := intLine_moderate (by decide)

theorem groupsDbl_eudist {i j : Nat} (hi : i < 6) (hj : j < 6) : groupsDbl.eudist i j = ((|[0, 1, 3, 20, 21, 23].getD i 0 - [0, 1, 3, 20, 21, 23].getD j 0| : ℤ) : ℝ) := intLine_eudist _ hi hj

theorem nearFactor_le_two : nearFactor ≤ 2 := by
  unfold nearFactor
  have : (2 : ℝ) ^ (-31 : ℤ) ≤ 1 := zpow_le_one_of_nonpos₀ (by norm_num) (by norm_num)
  linarith

theorem groupsDbl_far {γ : Type} {g : Nat → γ} (h : ∀ x < 6, ∀ q < 6, (g x = g q ↔ x / 3 = q / 3)) : groupsDbl.FarGroups g := by
  intro q x y hq hx hy h1 h2
  have hq : q < 6 := hq
  have hx : x < 6 := hx
  have hy : y < 6 := hy
  rw [groupsDbl_eudist hq hx, groupsDbl_eudist hq hy]
  have := (by decide : ∀ q x y : Fin 6, x.val / 3 = q.val / 3 → ¬ y.val / 3 = q.val / 3 →
    (2 : ℤ) * |[0, 1, 3, 20, 21, 23].getD q (0 : ℤ) - [0, 1, 3, 20, 21, 23].getD x 0| < |[0, 1, 3, 20, 21, 23].getD q 0 - [0, 1, 3, 20, 21, 23].getD y 0|)
    ⟨q, hq⟩ ⟨x, hx⟩ ⟨y, hy⟩ ((h x hx q hq).1 h1) (fun e => h2 ((h y hy q hq).2 e))
  refine lt_of_le_of_lt (mul_le_mul_of_nonneg_right nearFactor_le_two (by exact_mod_cast abs_nonneg _)) ?_
  exact_mod_cast this

theorem groupsDbl_large {o : Options Dbl} (hS : o.sizeConstraint = 2) (hT : o.numTypes = 0) (lab c : Nat → Nat) : GroupsLarge 6 o (List.range 6) lab c fun v => v / 3 := by
  intro q hq
  refine ⟨?_, fun h => absurd h (by omega)⟩
  rw [hS]
  exact (by decide : ∀ q ∈ List.range 6, 2 ≤ (groupOf 6 (fun v => v / 3) q).length) q hq

theorem groupsDbl_copies : groupsDbl.CopiesBelow (2 * 2) := by
  intro l hnd hl hsame
  by_contra hge
  rw [not_lt] at hge
  match l, hge with
  | x :: y :: rest, _ =>
    have hx : x < 6 := hl x (by simp)
    have hy : y < 6 := hl y (by simp)
    have h1 := hsame x (by simp) y (by simp) 0 (show 0 < 1 by norm_num)
    have e : ∀ i, i < 6 → groupsDbl.realCoord i 0 = (([0, 1, 3, 20, 21, 23].getD i 0 : ℤ) : ℝ) := fun i hi => intLine_coord _ hi
    rw [e x hx, e y hy, Int.cast_inj] at h1
    have h2 := (by decide : ∀ x < 6, ∀ y < 6, [0, 1, 3, 20, 21, 23].getD x (0 : ℤ) = [0, 1, 3, 20, 21, 23].getD y 0 → x = y) x hx y hy h1
    subst h2
    simp at hnd

example (um : UnassignedMethod) (pr : RadiusMethod) : OnSuccess sampleCfg (builtinSpi (some groupsDbl)) (dblOpts um pr) lineObj (sampleWorld [5]) fun k b => NotMixed 6 (List.range 6) (fun v => v / 3) k b :=
  C79_not_mixed (m := .lexical) groupsDbl_moderate rfl (dbl_callOk rfl rfl rfl rfl rfl) rfl rfl (groupsDbl_far fun _ _ _ _ => Iff.rfl) (groupsDbl_large rfl rfl _ _)

example : OnSuccess sampleCfg (builtinSpi (some groupsDbl)) { (dblOpts .anyNeighbor .useSeedRadius) with seedMethod := .batches, batchSize := 3 } lineObj (sampleWorld [5])
    fun k b => ∀ i, i < k → ∀ u ∈ members b 6 i, ∀ v ∈ members b 6 i, u / 3 = v / 3 :=
  C79_not_mixed_batches groupsDbl_moderate rfl (dbl_callOk rfl rfl rfl rfl rfl) rfl (by show 2 * 3 < 2 ^ 32; decide) (groupsDbl_far fun _ _ _ _ => Iff.rfl) (groupsDbl_large rfl rfl _ _)

example : OnSuccess sampleCfg (builtinSpi (some groupsDbl)) { (dblOpts .anyNeighbor .useSeedRadius) with seedMethod := .method .inwardsUpdating } lineObj (sampleWorld [5])
    fun k b => ∀ i, i < k → ∀ u ∈ members b 6 i, ∀ v ∈ members b 6 i, groupsDbl.eudist u v ≤ 2 * (1 + 2 ^ (-31 : ℤ)) * 2 := by
  refine C79_inwards_pairs groupsDbl_moderate rfl (dbl_callOk rfl rfl rfl rfl rfl) rfl rfl (by show 0 < 2; decide) rfl rfl rfl rfl fun v hv => ?_
  have hv : v < 6 := hv
  obtain ⟨x, hx, h1, h2⟩ := (by decide : ∀ v < 6, ∃ x, x < 6 ∧ x ≠ v ∧ |[0, 1, 3, 20, 21, 23].getD v (0 : ℤ) - [0, 1, 3, 20, 21, 23].getD x 0| ≤ 2) v hv
  exact ⟨x, hx, h1, by rw [groupsDbl_eudist hv hx]; exact_mod_cast h2⟩

example : OnSuccess sampleCfg (builtinSpi (some groupsDbl)) (dblOpts .closestSeed .useEstimated) lineObj (sampleWorld [5])
    fun k b => ∃ N seeds R, SeedClusters sampleCfg (NearestUpTo nearFactor groupsDbl.eudist groupsDbl.Within) 6 (dblOpts .closestSeed .useEstimated) (List.range 6) (fun _ => 0) (fun _ => 0) k b N seeds ∧
      R = seedEstimate groupsDbl.eudist N seeds ∧ 0 < R ∧ RelErr (24 * 2 ^ (-52 : ℤ)) R (seedEstimate groupsDbl.dist N seeds) ∧
      (2 ^ (-500 : ℤ) ≤ R → R ≤ 2 ^ (500 : ℤ) → ∀ v ∈ List.range 6, (∀ i, ¬ CapturedBy N seeds i v) →
        (∀ i, i < k → v ∈ members b 6 i → ∃ s, seeds[i]? = some s ∧ groupsDbl.eudist v s ≤ nearFactor * ((1 + 24 * 2 ^ (-52 : ℤ)) * R)) ∧
        (Unassigned sampleCfg b v → ∀ s ∈ seeds, (1 - 24 * 2 ^ (-52 : ℤ)) * R < nearFactor * groupsDbl.eudist v s)) :=
  C79_estimated_radius groupsDbl_moderate (by show 6 ≤ 2 ^ 49; norm_num) rfl (dbl_callOk rfl rfl rfl rfl rfl) (m := .lexical) rfl rfl rfl rfl (by
    show (24 : ℝ) * 2 ^ (-52 : ℤ) = (((1 : Nat) : ℝ) + 2 * ((6 : Nat) : ℝ) + 11) * 2 ^ (-52 : ℤ)
    norm_num)

/-- A C library that sorts by insertion. -/
noncomputable def dblEnv : HiEnv Dbl := ⟨fun l => l.insertionSort fun a b => a.2.ext ≤ b.2.ext, fun c n => c * min 64 (Nat.log2 n)⟩

theorem dblEnv_ok : dblEnv.Ok where
  sorts l _ := by
    have : Std.Total fun a b : Nat × Dbl => a.2.ext ≤ b.2.ext := ⟨fun a b => le_total _ _⟩
    have : IsTrans (Nat × Dbl) fun a b => a.2.ext ≤ b.2.ext := ⟨fun a b c h1 h2 => le_trans h1 h2⟩
    refine ⟨List.perm_insertionSort _ _, (List.pairwise_insertionSort _ _).imp fun {a b} h => ?_⟩
    by_contra hlt
    rw [Bool.not_eq_false] at hlt
    by_cases h1 : b.2 = .nan
    · rw [h1] at hlt; simp [FloatOps.lt, Dbl.lt] at hlt
    · by_cases h2 : a.2 = .nan
      · rw [h2] at hlt; cases hb : b.2 <;> rw [hb] at hlt <;> simp [FloatOps.lt, Dbl.lt] at hlt
      · rw [Dbl.lt_iff h1 h2] at hlt
        exact absurd h (not_le.2 hlt)
  log c n := by
    show c * min 64 (Nat.log2 n) ≤ 64 * c
    rw [Nat.mul_comm 64]
    exact Nat.mul_le_mul_left _ (Nat.min_le_left _ _)

example (batch : Bool) : HiOnSuccess sampleCfg dblEnv (builtinSpi (some groupsDbl)) 2 batch (hiObj 6 0 none) (sampleWorld [5]) fun k b => HiPartition 2 6 k b :=
  C79_hierarchical_sizes groupsDbl_moderate dblEnv_ok rfl batch (hiCallOk_sample (by decide)) rfl groupsDbl_copies

example : HiOnSuccess sampleCfg dblEnv (builtinSpi (some groupsDbl)) 2 false (hiObj 6 0 none) (sampleWorld [5])
    fun k b => ∀ i, i < k → ∀ u ∈ members b 6 i, ∀ v ∈ members b 6 i, decide (u < 3) = decide (v < 3) :=
  C79_hierarchical_groups groupsDbl_moderate dblEnv_ok rfl (hiCallOk_sample (by decide)) rfl groupsDbl_copies (g := fun v => decide (v < 3))
    (groupsDbl_far (by decide)) (by show ∀ b, 2 ≤ ((List.range 6).filter fun x => decide (x < 3) = b).length; decide)

example : SearchInput groupsDbl none (List.range 6) (some ⟨[7], Buf.ofList [2, 5, 0]⟩) [2, 5, 0] 2 .same (Buf.raw 6) (sampleWorld [7]) ∧ (2 : ℝ) ^ (-500 : ℤ) ≤ 3 ∧ (3 : ℝ) ≤ 2 ^ (500 : ℤ) := by
  have h := lineSearch_input .same (Or.inr (by decide))
  refine ⟨⟨(intLine_finite _).complete, rfl, h.queryHolds, List.nodup_range, fun x hx => List.mem_range.1 hx, h.queryRange, by simp [arrIds], h.queryLive, by simp, by decide, by decide, by decide, Or.inr (by decide),
    fun _ => by simp⟩, (zpow_le_one_of_nonpos₀ (by norm_num) (by norm_num)).trans (by norm_num), ?_⟩
  calc (3 : ℝ) ≤ 2 ^ (2 : ℤ) := by norm_num
    _ ≤ 2 ^ (500 : ℤ) := zpow_le_zpow_right₀ (by norm_num) (by norm_num)

example : ∃ r w', maxOnce (builtinSpi (some groupsDbl)) 6 none 1 (some ⟨[], Buf.ofList [2]⟩) (Buf.raw 1) (Buf.raw 1) (sampleWorld []) = some (r, w') ∧ w'.live = (sampleWorld []).live ∧
    match r with
    | none => ∃ i c, (sampleWorld []).fails i c = true
    | some (oI, oD) => ∀ (i q : Nat), [2][i]? = some q → ∃ x ∈ List.range 6, oI.get i = some x ∧ (∀ y ∈ List.range 6, groupsDbl.eudist q y ≤ nearFactor * groupsDbl.eudist q x) ∧
        ∃ z, oD.get i = some (.fin z) ∧ z ≤ nearFactor * groupsDbl.eudist q x ∧ groupsDbl.eudist q x ≤ nearFactor * z := by
  have h := C79_farthest groupsDbl_moderate (search := none) (queries := some ⟨[], Buf.ofList [2]⟩) (L := List.range 6) (Q := [2]) (outI := Buf.raw 1) (outD := Buf.raw 1) (w := sampleWorld [])
    rfl (fun i x hx => (Buf.get_ofList _ _).trans hx) (fun x hx => List.mem_range.1 hx) (fun x hx => by rw [List.mem_singleton.1 hx]; show 2 < 6; decide) (by decide) List.nodup_range (by simp [arrIds]) (by simp [arrIds])
    (by simp [Buf.raw]) (by simp [Buf.raw])
  rwa [List.length_range] at h

end Scc
