/-
Statistics in `double`: errors.
-/
import Verif.Proofs.DoubleSum
import Verif.Spec.StatsDouble
import Verif.Proofs.StatsPure
import Mathlib.Data.Finset.Max

set_option linter.unusedSimpArgs false

namespace Scc

/-! ### Ranges -/

theorem Mid.mono {k l : ℤ} {x : ℝ} (h : Mid k x) (hkl : k ≤ l) : Mid l x :=
  h.imp id fun h => ⟨(zpow_le_zpow_right₀ (by norm_num) (by omega)).trans h.1, h.2.trans (zpow_le_zpow_right₀ (by norm_num) hkl)⟩

theorem Mid.mul {k l : ℤ} {x y : ℝ} (hx : Mid k x) (hy : Mid l y) : Mid (k + l) (x * y) := by
  rcases hx with rfl | hx
  · exact Or.inl (zero_mul _)
  · rcases hy with rfl | hy
    · exact Or.inl (mul_zero _)
    · right
      rw [abs_mul, neg_add, zpow_add₀ (by norm_num), zpow_add₀ (by norm_num)]
      exact ⟨mul_le_mul hx.1 hy.1 (zpow2_pos _).le (abs_nonneg _), mul_le_mul hx.2 hy.2 (abs_nonneg _) (zpow2_pos _).le⟩

theorem Mid.inv {k : ℤ} {x : ℝ} (hx : Mid k x) : Mid k x⁻¹ := by
  rcases hx with rfl | hx
  · exact Or.inl inv_zero
  · right
    have h0 : 0 < |x| := (zpow2_pos _).trans_le hx.1
    rw [abs_inv, zpow_neg]
    constructor
    · exact inv_anti₀ h0 hx.2
    · have := inv_anti₀ (zpow2_pos _) hx.1
      rwa [zpow_neg, inv_inv] at this

theorem Mid.div {k l : ℤ} {x y : ℝ} (hx : Mid k x) (hy : Mid l y) : Mid (k + l) (x / y) := by
  rw [div_eq_mul_inv]
  exact hx.mul hy.inv

theorem mid_natCast {n l : Nat} (h : n ≤ 2 ^ l) : Mid l (n : ℝ) := by
  rcases Nat.eq_zero_or_pos n with rfl | h0
  · exact Or.inl (by simp)
  · right
    rw [abs_of_nonneg (Nat.cast_nonneg n)]
    have h1 : (1 : ℝ) ≤ n := by exact_mod_cast h0
    constructor
    · exact (zpow_le_one_of_nonpos₀ (by norm_num) (by omega)).trans h1
    · rw [zpow_natCast]
      exact_mod_cast h

theorem sum_le_length {xs : List ℝ} {B : ℝ} (h : ∀ x ∈ xs, x ≤ B) : xs.sum ≤ xs.length * B := by
  induction xs with
  | nil => simp
  | cons x xs ih =>
    rw [List.sum_cons, List.length_cons]
    push_cast
    have h1 := ih fun y hy => h y (List.mem_cons_of_mem _ hy)
    have h2 := h x List.mem_cons_self
    linarith

theorem mid_sum {k : ℤ} {l : Nat} {xs : List ℝ} (h : ∀ x ∈ xs, 0 ≤ x ∧ Mid k x) (hl : xs.length ≤ 2 ^ l) : Mid (k + l) xs.sum := by
  have h0 : 0 ≤ xs.sum := List.sum_nonneg fun x hx => (h x hx).1
  have hup : xs.sum ≤ 2 ^ (k + l : ℤ) := by
    refine (sum_le_length (B := 2 ^ k) fun x hx => (le_abs_self x).trans (h x hx).2.le).trans ?_
    rw [add_comm, zpow_add₀ (by norm_num), zpow_natCast]
    refine mul_le_mul_of_nonneg_right ?_ (zpow2_pos _).le
    exact_mod_cast hl
  by_cases hz : ∀ x ∈ xs, x = 0
  · left
    exact List.sum_eq_zero hz
  · right
    push Not at hz
    obtain ⟨x, hx, hx0⟩ := hz
    rw [abs_of_nonneg h0]
    refine ⟨?_, hup⟩
    have h1 := (h x hx).2.resolve_left hx0
    rw [abs_of_nonneg (h x hx).1] at h1
    have h2 : x ≤ xs.sum := List.single_le_sum (fun y hy => (h y hy).1) x hx
    exact ((zpow_le_zpow_right₀ (by norm_num) (by omega)).trans h1.1).trans h2

theorem leastOf_ind {P : ℝ → Prop} {xs : List ℝ} (h0 : P 0) (h : ∀ x ∈ xs, P x) : P (leastOf xs) := by
  cases xs with
  | nil => exact h0
  | cons x xs =>
    unfold leastOf
    induction xs generalizing x with
    | nil => exact h x (by simp)
    | cons y xs ih =>
      refine ih _ fun z hz => ?_
      rcases List.mem_cons.1 hz with rfl | hz
      · dsimp only
        split
        · exact h _ (by simp)
        · exact h _ (by simp)
      · exact h z (by simp [hz])

theorem greatestOf_ind {P : ℝ → Prop} {xs : List ℝ} (h0 : P 0) (h : ∀ x ∈ xs, P x) : P (greatestOf xs) := by
  cases xs with
  | nil => exact h0
  | cons x xs =>
    unfold greatestOf
    induction xs generalizing x with
    | nil => exact h x (by simp)
    | cons y xs ih =>
      refine ih _ fun z hz => ?_
      rcases List.mem_cons.1 hz with rfl | hz
      · dsimp only
        split
        · exact h _ (by simp)
        · exact h _ (by simp)
      · exact h z (by simp [hz])

/-! ### Distances -/

theorem eudist_mid {ds : DataSet Dbl} (h : ds.Moderate) {i j : Nat} (hi : i < ds.n) (hj : j < ds.n) : Mid 510 (ds.eudist i j) := by
  have hsq := eudist_sq ds i j
  have h0 := eudist_nonneg ds i j
  by_cases hz : ∀ t ∈ Finset.range ds.dims, ds.realCoord i t = ds.realCoord j t
  · left
    rw [Finset.sum_eq_zero (fun t ht => by rw [hz t ht, sub_self, zero_pow (by norm_num)])] at hsq
    exact pow_eq_zero_iff (by norm_num) |>.1 hsq
  · right
    push Not at hz
    obtain ⟨t, ht, hne⟩ := hz
    rw [abs_of_nonneg h0]
    constructor
    · have h1 := (h.spread i j t hi hj (Finset.mem_range.1 ht)).resolve_left hne
      have h2 : (ds.realCoord i t - ds.realCoord j t) ^ 2 ≤ ds.eudist i j ^ 2 := by
        rw [hsq]
        exact Finset.single_le_sum (f := fun t => (ds.realCoord i t - ds.realCoord j t) ^ 2) (fun _ _ => sq_nonneg _) ht
      have h3 := sq_le_sq.1 h2
      rw [abs_of_nonneg h0] at h3
      exact ((zpow_le_zpow_right₀ (by norm_num) (by norm_num)).trans h1.1).trans h3
    · have h1 : ds.eudist i j ^ 2 ≤ (2 ^ (510 : ℤ)) ^ 2 := by
        rw [hsq]
        have h2 : ∀ t ∈ Finset.range ds.dims, (ds.realCoord i t - ds.realCoord j t) ^ 2 ≤ 2 ^ (1000 : ℤ) := by
          intro t ht
          have h3 : |ds.realCoord i t - ds.realCoord j t| ≤ 2 ^ (500 : ℤ) := by
            rcases h.spread i j t hi hj (Finset.mem_range.1 ht) with h | h
            · rw [h, sub_self, abs_zero]; exact (zpow2_pos _).le
            · exact h.2
          have h4 := pow_le_pow_left₀ (abs_nonneg _) h3 2
          rw [sq_abs, ← zpow_natCast ((2 : ℝ) ^ (500 : ℤ)), ← zpow_mul] at h4
          exact h4
        calc ∑ t ∈ Finset.range ds.dims, (ds.realCoord i t - ds.realCoord j t) ^ 2 ≤ ∑ _t ∈ Finset.range ds.dims, (2 : ℝ) ^ (1000 : ℤ) := Finset.sum_le_sum h2
          _ = ds.dims * 2 ^ (1000 : ℤ) := by rw [Finset.sum_const, Finset.card_range, nsmul_eq_mul]
          _ ≤ 2 ^ 20 * 2 ^ (1000 : ℤ) := mul_le_mul_of_nonneg_right (by exact_mod_cast h.dims) (zpow2_pos _).le
          _ = (2 ^ (510 : ℤ)) ^ 2 := by
            rw [← zpow_natCast (2 : ℝ) 20, ← zpow_add₀ (by norm_num), ← zpow_natCast, ← zpow_mul]; norm_num
      exact (abs_le_of_sq_le_sq' h1 (zpow2_pos _).le).2

theorem dist_rounded {ds : DataSet Dbl} (h : ds.Moderate) {i j : Nat} (hi : i < ds.n) (hj : j < ds.n) : Rounded (ds.dims + 5) (ds.eudist i j) (ds.dist i j) := by
  obtain ⟨x, h1, h2, -, h3, h4⟩ := dist_error h hi hj
  have h0 := eudist_nonneg ds i j
  refine ⟨h0, (eudist_mid h hi hj).mono (by norm_num), x, h1, ?_, ?_⟩
  · refine (abs_le_of_sq_le_sq' (b := x) ?_ h2).2
    refine le_trans ?_ h3
    rw [mul_pow]
    refine mul_le_mul_of_nonneg_right ?_ (sq_nonneg _)
    rw [← pow_mul]
    exact down_anti (by omega)
  · refine (abs_le_of_sq_le_sq' ?_ (mul_nonneg (up_pos _).le h0)).2
    refine h4.trans ?_
    rw [mul_pow]
    refine mul_le_mul_of_nonneg_right ?_ (sq_nonneg _)
    rw [← pow_mul]
    exact up_mono (by omega)

theorem clusterDists_rounded {ds : DataSet Dbl} (h : ds.Moderate) (b : Buf Int) (c : Nat) :
    List.Forall₂ (Rounded (ds.dims + 5)) (clusterDists ds.eudist b ds.n c) (clusterDists ds.dist b ds.n c) := by
  unfold clusterDists
  rw [List.forall₂_map_left_iff, List.forall₂_map_right_iff, List.forall₂_same]
  intro p hp
  have := mem_upperPairs_mem hp
  rw [List.mem_reverse, List.mem_reverse, mem_members, mem_members] at this
  exact dist_rounded h this.1.1 this.2.1

theorem clusterDists_mid {ds : DataSet Dbl} (h : ds.Moderate) (b : Buf Int) (c : Nat) : ∀ x ∈ clusterDists ds.eudist b ds.n c, 0 ≤ x ∧ Mid 510 x := by
  intro x hx
  obtain ⟨p, hp, rfl⟩ := List.mem_map.1 hx
  have := mem_upperPairs_mem hp
  rw [List.mem_reverse, List.mem_reverse, mem_members, mem_members] at this
  exact ⟨eudist_nonneg _ _ _, eudist_mid h this.1.1 this.2.1⟩

/-! ### Counts -/

theorem realExact : ExactAdd ℝ where
  zero_add := zero_add
  assoc := add_assoc
  comm := add_comm

theorem sum_ones {α : Type} (l : List α) : (l.map fun _ => (1 : ℝ)).sum = l.length := by
  induction l with
  | nil => simp
  | cons x xs ih => rw [List.map_cons, List.sum_cons, ih, List.length_cons]; push_cast; ring

/-- The pairs within clusters are the pairs of the clusters. -/
theorem pairs_count {cfg : Cfg} (hcfg : cfg.Valid) {n k : Nat} {b : Buf Int} (hk : k ≤ cfg.clabelMax) (hv : ValidLabels cfg b n k) (d : Nat → Nat → ℝ) :
    ((clustersFrom b n k 2).map fun c => (clusterDists d b n c).length).sum = (pairsWithin cfg b n).length := by
  have h := sum_pairsWithin realExact hcfg (dist := fun _ _ => (1 : ℝ)) (fun _ _ _ _ => rfl) hk hv
  rw [real_clusterSum, real_sumOf, sum_ones] at h
  have e : ∀ c, sumOf (clusterDists (fun _ _ => (1 : ℝ)) b n c) = ((clusterDists d b n c).length : ℝ) := by
    intro c
    rw [real_sumOf, clusterDists, sum_ones, clusterDists, List.length_map]
  simp only [e] at h
  have e2 : ∀ l : List Nat, (l.map fun c => ((clusterDists d b n c).length : ℝ)).sum = ((l.map fun c => (clusterDists d b n c).length).sum : Nat) := by
    intro l
    induction l with
    | nil => simp
    | cons x xs ih => rw [List.map_cons, List.sum_cons, ih, List.map_cons, List.sum_cons]; push_cast; rfl
  rw [e2] at h
  exact_mod_cast h

theorem add_length_le {l : List Nat} {f : Nat → Nat} (h1 : ∀ x ∈ l, 1 ≤ f x) : l.length ≤ (l.map f).sum ∧ ∀ c ∈ l, f c + l.length ≤ (l.map f).sum + 1 := by
  induction l with
  | nil => simp
  | cons x xs ih =>
    obtain ⟨h2, h3⟩ := ih fun y hy => h1 y (List.mem_cons_of_mem _ hy)
    have h4 := h1 x List.mem_cons_self
    rw [List.map_cons, List.sum_cons, List.length_cons]
    refine ⟨by omega, fun c hc => ?_⟩
    rcases List.mem_cons.1 hc with rfl | hc
    · omega
    · have := h3 c hc
      omega

theorem populated_le {b : Buf Int} {n k : Nat} : (clustersFrom b n k 1).length ≤ n := by
  have hnd : (clustersFrom b n k 1).Nodup := List.nodup_range.filter _
  have hne : ∀ c ∈ clustersFrom b n k 1, ∃ v, v ∈ members b n c := by
    intro c hc
    have := of_decide_eq_true (List.mem_filter.1 hc).2
    exact List.exists_mem_of_length_pos (by omega)
  choose! f hf using hne
  have : ((clustersFrom b n k 1).map f).Nodup := by
    refine (List.nodup_map_iff_inj_on hnd).2 fun x hx y hy hxy => ?_
    have h1 := (mem_members.1 (hf x hx)).2
    have h2 := (mem_members.1 (hf y hy)).2
    rw [hxy, h2] at h1
    simp only [Option.some.injEq, Int.ofNat_inj] at h1
    exact h1.symm
  have h2 := (List.subperm_of_subset this (l₂ := List.range n) fun v hv => by
    obtain ⟨c, hc, rfl⟩ := List.mem_map.1 hv
    exact List.mem_range.2 (mem_members.1 (hf c hc)).1).length_le
  rwa [List.length_map, List.length_range] at h2

/-! ### Sums over clusters -/

section
variable {cfg : Cfg} (hcfg : cfg.Valid) {ds : DataSet Dbl} (hm : ds.Moderate) {k : Nat} {b : Buf Int} (hk : k ≤ cfg.clabelMax) (hv : ValidLabels cfg b ds.n k)
  (hN : (pairsWithin cfg b ds.n).length ≤ 2 ^ 51) (hn : ds.n ≤ 2 ^ 64)
include hcfg hm hk hv hN

theorem cluster_bounds {c : Nat} (hc : c ∈ clustersFrom b ds.n k 2) : 1 ≤ (clusterDists ds.eudist b ds.n c).length ∧
    (clusterDists ds.eudist b ds.n c).length + (clustersFrom b ds.n k 2).length ≤ (pairsWithin cfg b ds.n).length + 1 ∧ (clusterDists ds.eudist b ds.n c).length ≤ 2 ^ 51 := by
  have hpos : ∀ c ∈ clustersFrom b ds.n k 2, 1 ≤ (clusterDists ds.eudist b ds.n c).length := by
    intro c hc
    have := of_decide_eq_true (List.mem_filter.1 hc).2
    rw [length_clusterDists]
    have h2 : 2 * 1 ≤ (members b ds.n c).length * ((members b ds.n c).length - 1) := Nat.mul_le_mul this (by omega)
    omega
  have h1 := add_length_le hpos
  rw [pairs_count hcfg hk hv] at h1
  have h2 := h1.2 c hc
  have h3 := List.length_pos_of_mem hc
  exact ⟨hpos c hc, h2, by omega⟩

theorem statClusters_le : (clustersFrom b ds.n k 2).length ≤ 2 ^ 51 := by
  rcases List.eq_nil_or_concat (clustersFrom b ds.n k 2) with h | ⟨l, c, h⟩
  · rw [h]; simp
  · have := cluster_bounds hcfg hm hk hv hN (c := c) (by rw [h]; simp)
    omega

/-- Sums over clusters of values that have at most `e` roundings besides those of the distances in the cluster. -/
theorem total_rounded {e : Nat} (he : e ≤ 6) {f : Nat → ℝ} {g : Nat → Dbl} (hfg : ∀ c ∈ clustersFrom b ds.n k 2, Rounded (ds.dims + 5 + (clusterDists ds.eudist b ds.n c).length + e) (f c) (g c))
    (hmid : ∀ c ∈ clustersFrom b ds.n k 2, 0 ≤ f c ∧ Mid 676 (f c)) :
    Rounded (ds.dims + (pairsWithin cfg b ds.n).length + 6 + e) (clusterSum (clustersFrom b ds.n k 2) f) (clusterSum (clustersFrom b ds.n k 2) g) ∧ Mid 727 (clusterSum (clustersFrom b ds.n k 2) f) := by
  have hd := hm.dims
  have hmids : Mid 727 ((clustersFrom b ds.n k 2).map f).sum := by
    refine (mid_sum (k := 676) (l := 51) ?_ (by rw [List.length_map]; exact statClusters_le hcfg hm hk hv hN)).mono (by norm_num)
    intro x hx
    obtain ⟨c, hc, rfl⟩ := List.mem_map.1 hx
    exact hmid c hc
  rw [real_clusterSum]
  refine ⟨?_, hmids⟩
  rw [← real_clusterSum]
  rcases List.eq_nil_or_concat (clustersFrom b ds.n k 2) with h | ⟨l, c, h⟩
  · rw [h]; exact rounded_zero _
  · have hc : c ∈ clustersFrom b ds.n k 2 := by rw [h]; simp
    have h0 := cluster_bounds hcfg hm hk hv hN hc
    have h1 := Rounded.clusterSum (K := ds.dims + 5 + ((pairsWithin cfg b ds.n).length + 1 - (clustersFrom b ds.n k 2).length) + e) (cs := clustersFrom b ds.n k 2)
      (fun c hc => (hfg c hc).weaken (by have := cluster_bounds hcfg hm hk hv hN hc; omega)) (by omega)
      (((le_abs_self _).trans hmids.le).trans (zpow_le_zpow_right₀ (by norm_num) (by norm_num)))
    exact h1.weaken (by omega)

theorem sum_rounded {c : Nat} (hc : c ∈ clustersFrom b ds.n k 2) :
    Rounded (ds.dims + 5 + (clusterDists ds.eudist b ds.n c).length) (sumOf (clusterDists ds.eudist b ds.n c)) (sumOf (clusterDists ds.dist b ds.n c)) ∧
      0 ≤ sumOf (clusterDists ds.eudist b ds.n c) ∧ Mid 561 (sumOf (clusterDists ds.eudist b ds.n c)) := by
  obtain ⟨h1, h2, h3⟩ := cluster_bounds hcfg hm hk hv hN hc
  have hd := hm.dims
  have hmids : Mid 561 (clusterDists ds.eudist b ds.n c).sum := (mid_sum (l := 51) (clusterDists_mid hm b c) h3).mono (by norm_num)
  refine ⟨Rounded.sumOf (clusterDists_rounded hm b c) (by omega) (((le_abs_self _).trans hmids.le).trans (zpow_le_zpow_right₀ (by norm_num) (by norm_num))), ?_, ?_⟩
  · rw [real_sumOf]; exact List.sum_nonneg fun x hx => (clusterDists_mid hm b c x hx).1
  · rw [real_sumOf]; exact hmids

theorem total_sum : Rounded (ds.dims + (pairsWithin cfg b ds.n).length + 6) (clusterSum (clustersFrom b ds.n k 2) fun c => sumOf (clusterDists ds.eudist b ds.n c))
    (clusterSum (clustersFrom b ds.n k 2) fun c => sumOf (clusterDists ds.dist b ds.n c)) :=
  (total_rounded hcfg hm hk hv hN (e := 0) (by norm_num) (fun c hc => (sum_rounded hcfg hm hk hv hN hc).1)
    fun c hc => ⟨(sum_rounded hcfg hm hk hv hN hc).2.1, (sum_rounded hcfg hm hk hv hN hc).2.2.mono (by norm_num)⟩).1

include hn in
/-- Division of a total by a number of points or clusters. -/
theorem average_rounded {e m : Nat} (he : e ≤ 6) {x : ℝ} {d : Dbl} (h : Rounded (ds.dims + (pairsWithin cfg b ds.n).length + 6 + e) x d) (hmid : Mid 727 x) (hm0 : 0 < m) (hmn : m ≤ ds.n) :
    Rounded (ds.dims + (pairsWithin cfg b ds.n).length + 16) (x / (m : ℝ)) (FloatOps.div d (FloatOps.ofNat m)) := by
  have hd := hm.dims
  have h1 := h.div (L := 1) (by omega) (rounded_ofNat (hmn.trans hn)) (by exact_mod_cast hm0) ((hmid.div (mid_natCast (l := 64) (hmn.trans hn))).mono (by norm_num))
  exact h1.weaken (by omega)

theorem total_mean : Rounded (ds.dims + (pairsWithin cfg b ds.n).length + 6 + 3)
      (clusterSum (clustersFrom b ds.n k 2) fun c => FloatOps.div (sumOf (clusterDists ds.eudist b ds.n c)) (FloatOps.ofNat (clusterDists ds.eudist b ds.n c).length))
      (clusterSum (clustersFrom b ds.n k 2) fun c => FloatOps.div (sumOf (clusterDists ds.dist b ds.n c)) (FloatOps.ofNat (clusterDists ds.dist b ds.n c).length)) ∧
    Mid 727 (clusterSum (clustersFrom b ds.n k 2) fun c => FloatOps.div (sumOf (clusterDists ds.eudist b ds.n c)) (FloatOps.ofNat (clusterDists ds.eudist b ds.n c).length)) := by
  have hd := hm.dims
  refine total_rounded hcfg hm hk hv hN (e := 3) (by norm_num) (fun c hc => ?_) fun c hc => ?_
  · obtain ⟨h1, h2, h3⟩ := cluster_bounds hcfg hm hk hv hN hc
    obtain ⟨h4, h5, h6⟩ := sum_rounded hcfg hm hk hv hN hc
    have e : (clusterDists ds.dist b ds.n c).length = (clusterDists ds.eudist b ds.n c).length := by rw [length_clusterDists, length_clusterDists]
    rw [e]
    exact (h4.div (L := 1) (by omega) (rounded_ofNat (h3.trans (by norm_num))) (by exact_mod_cast h1) ((h6.div (mid_natCast h3)).mono (by norm_num))).weaken (by omega)
  · obtain ⟨h1, h2, h3⟩ := cluster_bounds hcfg hm hk hv hN hc
    obtain ⟨h4, h5, h6⟩ := sum_rounded hcfg hm hk hv hN hc
    exact ⟨div_nonneg h5 (Nat.cast_nonneg _), (h6.div (mid_natCast h3)).mono (by norm_num)⟩

include hn in
theorem total_weighted : Rounded (ds.dims + (pairsWithin cfg b ds.n).length + 6 + 5)
      (clusterSum (clustersFrom b ds.n k 2) fun c => FloatOps.div (FloatOps.mul (FloatOps.ofNat (members b ds.n c).length) (sumOf (clusterDists ds.eudist b ds.n c))) (FloatOps.ofNat (clusterDists ds.eudist b ds.n c).length))
      (clusterSum (clustersFrom b ds.n k 2) fun c => FloatOps.div (FloatOps.mul (FloatOps.ofNat (members b ds.n c).length) (sumOf (clusterDists ds.dist b ds.n c))) (FloatOps.ofNat (clusterDists ds.dist b ds.n c).length)) ∧
    Mid 727 (clusterSum (clustersFrom b ds.n k 2) fun c => FloatOps.div (FloatOps.mul (FloatOps.ofNat (members b ds.n c).length) (sumOf (clusterDists ds.eudist b ds.n c))) (FloatOps.ofNat (clusterDists ds.eudist b ds.n c).length)) := by
  have hd := hm.dims
  have hsz : ∀ c, (members b ds.n c).length ≤ 2 ^ 64 := fun c => le_trans (by unfold members; exact (List.length_filter_le _ _).trans (by rw [List.length_range])) hn
  refine total_rounded hcfg hm hk hv hN (e := 5) (by norm_num) (fun c hc => ?_) fun c hc => ?_
  · obtain ⟨h1, h2, h3⟩ := cluster_bounds hcfg hm hk hv hN hc
    obtain ⟨h4, h5, h6⟩ := sum_rounded hcfg hm hk hv hN hc
    have e : (clusterDists ds.dist b ds.n c).length = (clusterDists ds.eudist b ds.n c).length := by rw [length_clusterDists, length_clusterDists]
    rw [e]
    have h7 := (rounded_ofNat (hsz c)).mul (by omega) h4 (((mid_natCast (l := 64) (hsz c)).mul h6).mono (by norm_num))
    exact (h7.div (L := 1) (by omega) (rounded_ofNat (h3.trans (by norm_num))) (by exact_mod_cast h1) ((((mid_natCast (l := 64) (hsz c)).mul h6).div (mid_natCast h3)).mono (by norm_num))).weaken (by omega)
  · obtain ⟨h1, h2, h3⟩ := cluster_bounds hcfg hm hk hv hN hc
    obtain ⟨h4, h5, h6⟩ := sum_rounded hcfg hm hk hv hN hc
    exact ⟨div_nonneg (mul_nonneg (Nat.cast_nonneg _) h5) (Nat.cast_nonneg _), (((mid_natCast (l := 64) (hsz c)).mul h6).div (mid_natCast h3)).mono (by norm_num)⟩

theorem total_least : Rounded (ds.dims + (pairsWithin cfg b ds.n).length + 6) (clusterSum (clustersFrom b ds.n k 2) fun c => leastOf (clusterDists ds.eudist b ds.n c))
      (clusterSum (clustersFrom b ds.n k 2) fun c => leastOf (clusterDists ds.dist b ds.n c)) ∧
    Mid 727 (clusterSum (clustersFrom b ds.n k 2) fun c => leastOf (clusterDists ds.eudist b ds.n c)) := by
  refine total_rounded hcfg hm hk hv hN (e := 0) (by norm_num) (fun c hc => (Rounded.leastOf (clusterDists_rounded hm b c)).weaken (by omega)) fun c hc => ?_
  exact leastOf_ind (P := fun x => 0 ≤ x ∧ Mid 676 x) ⟨le_rfl, Or.inl rfl⟩ fun x hx => ⟨(clusterDists_mid hm b c x hx).1, (clusterDists_mid hm b c x hx).2.mono (by norm_num)⟩

theorem total_greatest : Rounded (ds.dims + (pairsWithin cfg b ds.n).length + 6) (clusterSum (clustersFrom b ds.n k 2) fun c => greatestOf (clusterDists ds.eudist b ds.n c))
      (clusterSum (clustersFrom b ds.n k 2) fun c => greatestOf (clusterDists ds.dist b ds.n c)) ∧
    Mid 727 (clusterSum (clustersFrom b ds.n k 2) fun c => greatestOf (clusterDists ds.eudist b ds.n c)) := by
  refine total_rounded hcfg hm hk hv hN (e := 0) (by norm_num) (fun c hc => (Rounded.greatestOf (clusterDists_rounded hm b c)).weaken (by omega)) fun c hc => ?_
  exact greatestOf_ind (P := fun x => 0 ≤ x ∧ Mid 676 x) ⟨le_rfl, Or.inl rfl⟩ fun x hx => ⟨(clusterDists_mid hm b c x hx).1, (clusterDists_mid hm b c x hx).2.mono (by norm_num)⟩

end

/-! ### Extremes -/

theorem eq_fin_of_le {a : Dbl} {x : ℝ} (h1 : FloatOps.le a (.fin x) = true) (h2 : FloatOps.le (.fin x) a = true) : a = .fin x := by
  have hne := (Dbl.le_nan h1).1
  rw [Dbl.le_iff hne (by simp)] at h1
  rw [Dbl.le_iff (by simp) hne] at h2
  have h3 : a.ext = ((x : ℝ) : EReal) := le_antisymm h1 h2
  match a, hne, h3 with
  | .fin y, _, h3 => rw [EReal.coe_eq_coe_iff.1 h3]
  | .inf true, _, h3 => exact absurd h3.symm (EReal.coe_ne_bot x)
  | .inf false, _, h3 => exact absurd h3.symm (EReal.coe_ne_top x)

/-- The values that are extreme in exact arithmetic. -/
theorem exists_extremes (d : Nat → Nat → ℝ) (b : Buf Int) (n k : Nat) (h : ∃ i j, i ≠ j ∧ SameCluster b n k i j) :
    (∃ i j, (i ≠ j ∧ SameCluster b n k i j) ∧ ∀ i' j', i' ≠ j' → SameCluster b n k i' j' → d i j ≤ d i' j') ∧ ∃ i j, (i ≠ j ∧ SameCluster b n k i j) ∧ ∀ i' j', i' ≠ j' → SameCluster b n k i' j' → d i' j' ≤ d i j := by
  classical
  let T := ((Finset.range n) ×ˢ (Finset.range n)).filter fun p => p.1 ≠ p.2 ∧ SameCluster b n k p.1 p.2
  have hT : ∀ i j, i ≠ j → SameCluster b n k i j → (i, j) ∈ T := fun i j hij hs => by
    simp only [T, Finset.mem_filter, Finset.mem_product, Finset.mem_range]
    exact ⟨⟨hs.1, hs.2.1⟩, hij, hs⟩
  have hne : T.Nonempty := by
    obtain ⟨i, j, hij, hs⟩ := h
    exact ⟨(i, j), hT i j hij hs⟩
  obtain ⟨p, hp, hpm⟩ := Finset.exists_min_image T (fun p => d p.1 p.2) hne
  obtain ⟨q, hq, hqm⟩ := Finset.exists_max_image T (fun p => d p.1 p.2) hne
  exact ⟨⟨p.1, p.2, (Finset.mem_filter.1 hp).2, fun i j hij hs => hpm (i, j) (hT i j hij hs)⟩, ⟨q.1, q.2, (Finset.mem_filter.1 hq).2, fun i j hij hs => hqm (i, j) (hT i j hij hs)⟩⟩

theorem maxDist_near {ds : DataSet Dbl} (hm : ds.Moderate) {k : Nat} {b : Buf Int} {s : Stats Dbl} (hE : ExtremesAre ds.dist ds.n k b s) :
    ∃ M, (∀ i j, i ≠ j → SameCluster b ds.n k i j → ds.eudist i j ≤ M) ∧ ((∃ i j, i ≠ j ∧ SameCluster b ds.n k i j) → ∃ i j, i ≠ j ∧ SameCluster b ds.n k i j ∧ M ≤ ds.eudist i j) ∧
      ((¬ ∃ i j, i ≠ j ∧ SameCluster b ds.n k i j) → M = 0) ∧ Rounded (ds.dims + 5) M s.maxDist := by
  by_cases hex : ∃ i j, i ≠ j ∧ SameCluster b ds.n k i j
  · obtain ⟨-, i, j, ⟨hij, hs⟩, hmax⟩ := exists_extremes ds.eudist b ds.n k hex
    refine ⟨ds.eudist i j, hmax, fun _ => ⟨i, j, hij, hs, le_rfl⟩, fun h => absurd hex h, ?_⟩
    obtain ⟨i', j', hij', hs', h1⟩ := hE.max_is hex
    have h2 := hE.le_max i' j' hij' hs'
    obtain ⟨-, -, y, hy, hy1, hy2⟩ := dist_rounded hm hs'.1 hs'.2.1
    rw [hy] at h1 h2
    have h3 := eq_fin_of_le h1 h2
    obtain ⟨h4, h5, z, hz, hz1, hz2⟩ := dist_rounded hm hs.1 hs.2.1
    have h6 := hE.le_max i j hij hs
    rw [hz, h3, Dbl.le_fin] at h6
    refine ⟨h4, h5, y, h3, hz1.trans h6, hy2.trans ?_⟩
    exact mul_le_mul_of_nonneg_left (hmax i' j' hij' hs') (up_pos _).le
  · refine ⟨0, fun i j hij hs => absurd ⟨i, j, hij, hs⟩ hex, fun h => absurd h hex, fun _ => rfl, ?_⟩
    rw [hE.max_zero hex]
    exact rounded_zero _

theorem minDist_near {ds : DataSet Dbl} (hm : ds.Moderate) {k : Nat} {b : Buf Int} {s : Stats Dbl} (hE : ExtremesAre ds.dist ds.n k b s)
    (hpop : (∃ c, c < k ∧ (members b ds.n c).length = 1) ∨ ∃ i j, i ≠ j ∧ SameCluster b ds.n k i j) :
    ∃ M, ((∃ c, c < k ∧ (members b ds.n c).length = 1) → M = 0) ∧ (∀ i j, i ≠ j → SameCluster b ds.n k i j → M ≤ ds.eudist i j) ∧
      ((∃ i j, i ≠ j ∧ SameCluster b ds.n k i j) → (∀ c, c < k → (members b ds.n c).length ≠ 1) → ∃ i j, i ≠ j ∧ SameCluster b ds.n k i j ∧ ds.eudist i j ≤ M) ∧
      Rounded (ds.dims + 5) M s.minDist := by
  by_cases hal : ∃ c, c < k ∧ (members b ds.n c).length = 1
  · refine ⟨0, fun _ => rfl, fun i j _ _ => eudist_nonneg _ _ _, fun _ h => ?_, ?_⟩
    · obtain ⟨c, hc, h1⟩ := hal
      exact absurd h1 (h c hc)
    · rw [hE.alone hal]; exact rounded_zero _
  · have hex := hpop.resolve_left hal
    obtain ⟨⟨i, j, ⟨hij, hs⟩, hmin⟩, -⟩ := exists_extremes ds.eudist b ds.n k hex
    refine ⟨ds.eudist i j, fun h => absurd h hal, hmin, fun _ _ => ⟨i, j, hij, hs, le_rfl⟩, ?_⟩
    obtain ⟨i', j', hij', hs', h1⟩ := hE.min_is hex fun c hc h => hal ⟨c, hc, h⟩
    have h2 := hE.min_le i' j' hij' hs'
    obtain ⟨-, -, y, hy, hy1, hy2⟩ := dist_rounded hm hs'.1 hs'.2.1
    rw [hy] at h1 h2
    have h3 := eq_fin_of_le h2 h1
    obtain ⟨h4, h5, z, hz, hz1, hz2⟩ := dist_rounded hm hs.1 hs.2.1
    have h6 := hE.min_le i j hij hs
    rw [hz, h3, Dbl.le_fin] at h6
    refine ⟨h4, h5, y, h3, ?_, h6.trans hz2⟩
    exact (mul_le_mul_of_nonneg_left (hmin i' j' hij' hs') (down_pos _).le).trans hy1

end Scc
