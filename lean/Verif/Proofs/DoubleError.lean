/-
The error of distances computed in `double`.
-/
import Verif.Proofs.DoubleLaws
import Verif.Spec.Double

set_option linter.unusedSimpArgs false

namespace Scc

theorem ulp_pos : 0 < roundoff := zpow2_pos _

theorem ulp_lt : roundoff < 1 := by unfold roundoff; norm_num

theorem nearest53_abs (x : ℝ) : nearest53 |x| = |nearest53 x| := by
  rcases le_total 0 x with h | h
  · rw [abs_of_nonneg h, abs_of_nonneg (nearest53_nonneg h)]
  · have h1 := nearest53_nonneg (neg_nonneg.2 h)
    rw [nearest53_neg] at h1
    rw [abs_of_nonpos h, nearest53_neg, abs_of_nonpos (neg_nonneg.1 h1)]

/-- A bound that is a number with few bits is kept by rounding. -/
theorem nearest53_le_rep {x : ℝ} (m e : ℤ) (hm : |m| ≤ 2 ^ 53) (he : -1074 ≤ e) (h : x ≤ m * 2 ^ e) : nearest53 x ≤ m * 2 ^ e := by
  rw [← nearest53_rep m e hm he]
  exact nearest53_mono h

theorem nearest53_le_zpow {x : ℝ} (e : ℤ) (he : -1074 ≤ e) (h : x ≤ 2 ^ e) : nearest53 x ≤ 2 ^ e := by
  rw [← nearest53_zpow e he]
  exact nearest53_mono h

theorem zpow_le_nearest53 {x : ℝ} (e : ℤ) (he : -1074 ≤ e) (h : 2 ^ e ≤ x) : 2 ^ e ≤ nearest53 x := by
  rw [← nearest53_zpow e he]
  exact nearest53_mono h

theorem zpow_le_maxDouble : (2 : ℝ) ^ (1023 : ℤ) ≤ maxDouble := by
  unfold maxDouble
  have : (2 : ℝ) ^ (1023 : ℤ) = 2 ^ 52 * 2 ^ 971 := by
    rw [← zpow_natCast, ← zpow_natCast, ← zpow_add₀ (by norm_num)]
    congr 1
  rw [this]
  exact mul_le_mul_of_nonneg_right (by norm_num) (by positivity)

theorem round_eq_fin {x : ℝ} (h : |nearest53 x| ≤ maxDouble) : Dbl.round x = .fin (nearest53 x) := by
  unfold Dbl.round
  rw [if_pos h]

/-- Zero or of moderate size. -/
def Mid (k : ℤ) (x : ℝ) : Prop := x = 0 ∨ 2 ^ (-k) ≤ |x| ∧ |x| ≤ 2 ^ k

theorem Mid.normal {k : ℤ} {x : ℝ} (h : Mid k x) (hk : k ≤ 1022) : x = 0 ∨ 2 ^ (-1022 : ℤ) ≤ |x| :=
  h.imp id fun h => (zpow_le_zpow_right₀ (by norm_num) (by omega)).trans h.1

theorem Mid.le {k : ℤ} {x : ℝ} (h : Mid k x) : |x| ≤ 2 ^ k := by
  rcases h with rfl | h
  · rw [abs_zero]; exact (zpow2_pos k).le
  · exact h.2

theorem Mid.round {k : ℤ} {x : ℝ} (h : Mid k x) (hk : k ≤ 1022) (hk0 : 0 ≤ k) : Mid k (nearest53 x) := by
  rcases h with rfl | h
  · exact Or.inl nearest53_zero
  · right
    rw [← nearest53_abs]
    exact ⟨zpow_le_nearest53 _ (by omega) h.1, nearest53_le_zpow _ (by omega) h.2⟩

theorem Mid.fin {k : ℤ} {x : ℝ} (h : Mid k x) (hk : k ≤ 1022) (hk0 : 0 ≤ k) : Dbl.round x = .fin (nearest53 x) :=
  round_eq_fin ((h.round hk hk0).le.trans ((zpow_le_zpow_right₀ (by norm_num) (by omega)).trans zpow_le_maxDouble))

theorem Mid.error {k : ℤ} {x : ℝ} (h : Mid k x) (hk : k ≤ 1022) : |nearest53 x - x| ≤ roundoff * |x| := nearest53_error (h.normal hk)

theorem abs_rel {x y u : ℝ} (hu : u < 1) (h : |y - x| ≤ u * |x|) : (1 - u) * |x| ≤ |y| ∧ |y| ≤ (1 + u) * |x| := by
  have h1 := abs_sub_abs_le_abs_sub y x
  have h2 := abs_sub_abs_le_abs_sub x y
  rw [abs_sub_comm] at h2
  constructor <;> linarith

theorem sq_rel {x y u : ℝ} (hu0 : 0 < u) (hu : u < 1) (h : |y - x| ≤ u * |x|) : (1 - u) ^ 2 * x ^ 2 ≤ y ^ 2 ∧ y ^ 2 ≤ (1 + u) ^ 2 * x ^ 2 := by
  obtain ⟨h1, h2⟩ := abs_rel hu h
  have h3 : 0 ≤ (1 - u) * |x| := mul_nonneg (by linarith) (abs_nonneg x)
  have h4 := pow_le_pow_left₀ h3 h1 2
  have h5 := pow_le_pow_left₀ (abs_nonneg y) h2 2
  rw [mul_pow, sq_abs, sq_abs] at h4
  rw [mul_pow, sq_abs, sq_abs] at h5
  exact ⟨h4, h5⟩

theorem pos_rel {x y u : ℝ} (hx : 0 ≤ x) (h : |y - x| ≤ u * |x|) : (1 - u) * x ≤ y ∧ y ≤ (1 + u) * x := by
  rw [abs_of_nonneg hx] at h
  have := abs_le.1 h
  constructor <;> linarith [this.1, this.2]

/-- One term of the squared distance. -/
theorem sqTerm_error {ds : DataSet Dbl} (h : ds.FiniteCoords) {i j t : Nat} (hi : i < ds.n) (hj : j < ds.n) (ht : t < ds.dims) (hm : Mid 500 (ds.realCoord i t - ds.realCoord j t)) :
    ∃ x, ds.sqTerm i j t = .fin x ∧ 0 ≤ x ∧ Mid 1000 x ∧
      (1 - roundoff) ^ 3 * (ds.realCoord i t - ds.realCoord j t) ^ 2 ≤ x ∧ x ≤ (1 + roundoff) ^ 3 * (ds.realCoord i t - ds.realCoord j t) ^ 2 := by
  set δ := ds.realCoord i t - ds.realCoord j t with hδ
  have h1 : ds.sqTerm i j t = Dbl.round (nearest53 δ * nearest53 δ) := by
    unfold DataSet.sqTerm
    rw [h.coord_eq hi ht, h.coord_eq hj ht, Dbl.sub_fin, ← hδ, hm.fin (by norm_num) (by norm_num)]
    rfl
  have hr := hm.round (by norm_num) (by norm_num)
  have hm2 : Mid 1000 (nearest53 δ * nearest53 δ) := by
    rcases hr with h2 | ⟨h2, h3⟩
    · exact Or.inl (by rw [h2, mul_zero])
    · right
      rw [abs_mul]
      have e1 : (2 : ℝ) ^ (-1000 : ℤ) = 2 ^ (-500 : ℤ) * 2 ^ (-500 : ℤ) := by rw [← zpow_add₀ (by norm_num)]; norm_num
      have e2 : (2 : ℝ) ^ (1000 : ℤ) = 2 ^ (500 : ℤ) * 2 ^ (500 : ℤ) := by rw [← zpow_add₀ (by norm_num)]; norm_num
      rw [e1, e2]
      exact ⟨mul_le_mul h2 h2 (zpow2_pos _).le (abs_nonneg _), mul_le_mul h3 h3 (abs_nonneg _) (zpow2_pos _).le⟩
  refine ⟨_, h1.trans (hm2.fin (by norm_num) (by norm_num)), nearest53_nonneg (mul_self_nonneg _), hm2.round (by norm_num) (by norm_num), ?_⟩
  have h2 := sq_rel ulp_pos ulp_lt (hm.error (by norm_num))
  have h3 := pos_rel (mul_self_nonneg _) (hm2.error (by norm_num))
  have hu := ulp_pos
  have hu' := ulp_lt
  rw [← pow_two] at h3 ⊢
  constructor
  · calc (1 - roundoff) ^ 3 * δ ^ 2 = (1 - roundoff) * ((1 - roundoff) ^ 2 * δ ^ 2) := by ring
      _ ≤ (1 - roundoff) * nearest53 δ ^ 2 := mul_le_mul_of_nonneg_left h2.1 (by linarith)
      _ ≤ _ := h3.1
  · calc nearest53 (nearest53 δ ^ 2) ≤ (1 + roundoff) * nearest53 δ ^ 2 := h3.2
      _ ≤ (1 + roundoff) * ((1 + roundoff) ^ 2 * δ ^ 2) := mul_le_mul_of_nonneg_left h2.2 (by linarith)
      _ = _ := by ring

/-- The sum of the first terms. -/
theorem sqSum_error {ds : DataSet Dbl} (h : ds.FiniteCoords) {i j : Nat} (hi : i < ds.n) (hj : j < ds.n) (hd : ds.dims ≤ 2 ^ 20)
    (hm : ∀ t, t < ds.dims → Mid 500 (ds.realCoord i t - ds.realCoord j t)) (k : Nat) (hk : k ≤ ds.dims) :
    ∃ x, (List.range k).foldl (fun acc t => FloatOps.add acc (ds.sqTerm i j t)) (FloatOps.zero : Dbl) = .fin x ∧ 0 ≤ x ∧ x ≤ k * 2 ^ (1000 : ℤ) ∧ (x = 0 ∨ 2 ^ (-1000 : ℤ) ≤ x) ∧
      (1 - roundoff) ^ (3 + k) * ∑ t ∈ Finset.range k, (ds.realCoord i t - ds.realCoord j t) ^ 2 ≤ x ∧
      x ≤ (1 + roundoff) ^ (3 + k) * ∑ t ∈ Finset.range k, (ds.realCoord i t - ds.realCoord j t) ^ 2 := by
  have hu := ulp_pos
  have hu' := ulp_lt
  induction k with
  | zero => exact ⟨0, rfl, le_refl _, by simp, Or.inl rfl, by simp, by simp⟩
  | succ k ih =>
    obtain ⟨x, hx, hx0, hxk, hxm, hxl, hxu⟩ := ih (by omega)
    obtain ⟨y, hy, hy0, hym, hyl, hyu⟩ := sqTerm_error h hi hj (show k < ds.dims by omega) (hm k (by omega))
    have hyk : y ≤ 2 ^ (1000 : ℤ) := (le_abs_self y).trans hym.le
    have hym' : y = 0 ∨ 2 ^ (-1000 : ℤ) ≤ y := by
      rcases hym with h | h
      · exact Or.inl h
      · exact Or.inr (by rw [abs_of_nonneg hy0] at h; exact h.1)
    have hs0 : 0 ≤ x + y := add_nonneg hx0 hy0
    have hsm : x + y = 0 ∨ 2 ^ (-1000 : ℤ) ≤ x + y := by
      rcases hxm with h1 | h1
      · rw [h1, zero_add]; exact hym'
      · exact Or.inr (by linarith)
    have hcast : ((k + 1 : Nat) : ℝ) * 2 ^ (1000 : ℤ) = k * 2 ^ (1000 : ℤ) + 2 ^ (1000 : ℤ) := by push_cast; ring
    have hsk : x + y ≤ ((k + 1 : Nat) : ℝ) * 2 ^ (1000 : ℤ) := by rw [hcast]; exact add_le_add hxk hyk
    have hrk : nearest53 (x + y) ≤ ((k + 1 : Nat) : ℝ) * 2 ^ (1000 : ℤ) := by
      have hk1 : ((k + 1 : Nat) : ℤ) ≤ 2 ^ 53 := by
        have : k + 1 ≤ 2 ^ 53 := (show k + 1 ≤ 2 ^ 20 by omega).trans (by norm_num)
        exact_mod_cast this
      have := nearest53_le_rep (x := x + y) ((k + 1 : Nat) : ℤ) 1000 (by rw [abs_of_nonneg (by positivity)]; exact hk1) (by norm_num) (by rw [Int.cast_natCast]; exact hsk)
      rw [Int.cast_natCast] at this
      exact this
    have hr0 := nearest53_nonneg hs0
    have hfin : Dbl.round (x + y) = .fin (nearest53 (x + y)) := by
      apply round_eq_fin
      rw [abs_of_nonneg hr0]
      refine hrk.trans (le_trans ?_ zpow_le_maxDouble)
      calc ((k + 1 : Nat) : ℝ) * 2 ^ (1000 : ℤ) ≤ 2 ^ 20 * 2 ^ (1000 : ℤ) := by
            refine mul_le_mul_of_nonneg_right ?_ (zpow2_pos _).le
            have : k + 1 ≤ 2 ^ 20 := by omega
            exact_mod_cast this
        _ = 2 ^ (1020 : ℤ) := by rw [← zpow_natCast, ← zpow_add₀ (by norm_num)]; norm_num
        _ ≤ 2 ^ (1023 : ℤ) := zpow_le_zpow_right₀ (by norm_num) (by norm_num)
    have herr := pos_rel (u := roundoff) hs0 (nearest53_error (x := x + y) (hsm.imp id fun h => by
      rw [abs_of_nonneg hs0]
      exact (zpow_le_zpow_right₀ (by norm_num) (by norm_num)).trans h))
    have hrm : nearest53 (x + y) = 0 ∨ 2 ^ (-1000 : ℤ) ≤ nearest53 (x + y) := by
      rcases hsm with h1 | h1
      · exact Or.inl (by rw [h1, nearest53_zero])
      · exact Or.inr (zpow_le_nearest53 _ (by norm_num) h1)
    refine ⟨nearest53 (x + y), ?_, hr0, hrk, hrm, ?_, ?_⟩
    · rw [List.range_succ, List.foldl_append, hx, List.foldl_cons, List.foldl_nil, hy]
      exact hfin
    · rw [Finset.sum_range_succ]
      refine le_trans ?_ herr.1
      have h1 : (1 - roundoff) ^ (3 + k) ≤ (1 - roundoff) ^ 3 := by
        rw [pow_add]
        exact mul_le_of_le_one_right (pow_nonneg (by linarith) 3) (pow_le_one₀ (by linarith) (by linarith))
      have h2 : (1 - roundoff) ^ (3 + k) * (ds.realCoord i k - ds.realCoord j k) ^ 2 ≤ y := (mul_le_mul_of_nonneg_right h1 (sq_nonneg _)).trans hyl
      rw [show (1 - roundoff) ^ (3 + (k + 1)) = (1 - roundoff) * (1 - roundoff) ^ (3 + k) by ring, mul_assoc]
      refine mul_le_mul_of_nonneg_left ?_ (by linarith)
      rw [mul_add]
      exact add_le_add hxl h2
    · rw [Finset.sum_range_succ]
      refine herr.2.trans ?_
      have h1 : (1 + roundoff) ^ 3 ≤ (1 + roundoff) ^ (3 + k) := pow_le_pow_right₀ (by linarith) (by omega)
      have h2 : y ≤ (1 + roundoff) ^ (3 + k) * (ds.realCoord i k - ds.realCoord j k) ^ 2 := hyu.trans (mul_le_mul_of_nonneg_right h1 (sq_nonneg _))
      rw [show (1 + roundoff) ^ (3 + (k + 1)) = (1 + roundoff) * (1 + roundoff) ^ (3 + k) by ring, mul_assoc]
      refine mul_le_mul_of_nonneg_left ?_ (by linarith)
      rw [mul_add]
      exact add_le_add hxu h2

theorem eudist_sq (ds : DataSet Dbl) (i j : Nat) : ds.eudist i j ^ 2 = ∑ t ∈ Finset.range ds.dims, (ds.realCoord i t - ds.realCoord j t) ^ 2 := by
  unfold DataSet.eudist
  rw [EuclideanSpace.dist_eq, Real.sq_sqrt (Finset.sum_nonneg fun _ _ => sq_nonneg _), ← Fin.sum_univ_eq_sum_range (fun t => (ds.realCoord i t - ds.realCoord j t) ^ 2)]
  refine Finset.sum_congr rfl fun t _ => ?_
  rw [Real.dist_eq, sq_abs]
  rfl

/-- Squared distances have a small relative error. -/
theorem sqd_error {ds : DataSet Dbl} (h : ds.Moderate) {i j : Nat} (hi : i < ds.n) (hj : j < ds.n) :
    ∃ x, ds.sqd i j = .fin x ∧ 0 ≤ x ∧ x ≤ ds.dims * 2 ^ (1000 : ℤ) ∧ (x = 0 ∨ 2 ^ (-1000 : ℤ) ≤ x) ∧
      (1 - roundoff) ^ (ds.dims + 3) * ds.eudist i j ^ 2 ≤ x ∧ x ≤ (1 + roundoff) ^ (ds.dims + 3) * ds.eudist i j ^ 2 := by
  obtain ⟨x, h1, h2, h3, h4, h5, h6⟩ := sqSum_error h.finite hi hj h.dims (fun t ht => by
    rcases h.spread i j t hi hj ht with h | h
    · exact Or.inl (sub_eq_zero.2 h)
    · exact Or.inr h) ds.dims (le_refl _)
  rw [← eudist_sq, add_comm 3] at h5 h6
  exact ⟨x, h1, h2, h3, h4, h5, h6⟩

/-- Distances have a small relative error. -/
theorem dist_error {ds : DataSet Dbl} (h : ds.Moderate) {i j : Nat} (hi : i < ds.n) (hj : j < ds.n) :
    ∃ x, ds.dist i j = .fin x ∧ 0 ≤ x ∧ x ≤ maxDouble ∧
      (1 - roundoff) ^ (ds.dims + 5) * ds.eudist i j ^ 2 ≤ x ^ 2 ∧ x ^ 2 ≤ (1 + roundoff) ^ (ds.dims + 5) * ds.eudist i j ^ 2 := by
  have hu := ulp_pos
  have hu' := ulp_lt
  obtain ⟨x, h1, h2, h3, h4, h5, h6⟩ := sqd_error h hi hj
  have hm : Mid 510 (Real.sqrt x) := by
    rcases h4 with rfl | h4
    · exact Or.inl Real.sqrt_zero
    · right
      rw [abs_of_nonneg (Real.sqrt_nonneg x)]
      constructor
      · apply Real.le_sqrt_of_sq_le
        refine le_trans ?_ h4
        rw [← zpow_natCast, ← zpow_mul]
        exact zpow_le_zpow_right₀ (by norm_num) (by norm_num)
      · rw [Real.sqrt_le_left (zpow2_pos _).le]
        calc x ≤ ds.dims * 2 ^ (1000 : ℤ) := h3
          _ ≤ 2 ^ 20 * 2 ^ (1000 : ℤ) := mul_le_mul_of_nonneg_right (by exact_mod_cast h.dims) (zpow2_pos _).le
          _ = (2 ^ (510 : ℤ)) ^ 2 := by
            rw [← zpow_natCast (2 : ℝ), ← zpow_add₀ (by norm_num), ← zpow_natCast, ← zpow_mul]; norm_num
  have herr := sq_rel ulp_pos ulp_lt (hm.error (by norm_num))
  rw [Real.sq_sqrt h2] at herr
  refine ⟨nearest53 (Real.sqrt x), ?_, nearest53_nonneg (Real.sqrt_nonneg x), ?_, ?_, ?_⟩
  · unfold DataSet.dist
    rw [h1]
    show (if x < 0 then Dbl.nan else Dbl.round (Real.sqrt x)) = _
    rw [if_neg (not_lt.2 h2)]
    exact hm.fin (by norm_num) (by norm_num)
  · exact (le_abs_self _).trans ((hm.round (by norm_num) (by norm_num)).le.trans ((zpow_le_zpow_right₀ (by norm_num) (by norm_num)).trans zpow_le_maxDouble))
  · refine le_trans ?_ herr.1
    rw [show (1 - roundoff) ^ (ds.dims + 5) = (1 - roundoff) ^ 2 * (1 - roundoff) ^ (ds.dims + 3) by ring, mul_assoc]
    exact mul_le_mul_of_nonneg_left h5 (sq_nonneg _)
  · refine herr.2.trans ?_
    rw [show (1 + roundoff) ^ (ds.dims + 5) = (1 + roundoff) ^ 2 * (1 + roundoff) ^ (ds.dims + 3) by ring, mul_assoc]
    exact mul_le_mul_of_nonneg_left h6 (sq_nonneg _)

end Scc
