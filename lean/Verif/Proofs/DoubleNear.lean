/-
Nearest neighbours in `double` are nearest neighbours up to a factor.
-/
import Verif.Proofs.DoubleError
import Verif.Proofs.NearWeaken
import Verif.Proofs.Nearest
import Verif.Spec.NearApprox

set_option linter.unusedSimpArgs false

namespace Scc

theorem nearFactor_one : 1 ≤ nearFactor := by
  unfold nearFactor
  linarith [zpow2_pos (-31)]

theorem slack_aux {t : ℝ} (h0 : 0 < t) (h1 : t ≤ 1 / 2) : 1 ≤ (1 + 2 * t + t * t) * (1 - t) := by
  have h2 : t * t ≤ t * (1 / 2) := mul_le_mul_of_nonneg_left h1 h0.le
  have h3 := mul_nonneg h0.le (show 0 ≤ 1 - t - t * t by linarith)
  have h4 : (1 + 2 * t + t * t) * (1 - t) = 1 + t * (1 - t - t * t) := by ring
  linarith

/-- The errors of all operations together. -/
theorem slack_le {m : Nat} (hm : m ≤ 2 ^ 20 + 8) : (1 + roundoff) ^ m ≤ nearFactor ^ 2 * (1 - roundoff) ^ m := by
  have hu := ulp_pos
  have hu' := ulp_lt
  have h1 : 1 - (2 * m : Nat) * roundoff ≤ (1 - roundoff) ^ (2 * m) := by
    have := one_add_mul_le_pow (show -2 ≤ -roundoff by linarith) (2 * m)
    rw [← sub_eq_add_neg] at this
    linarith
  have h2 : (1 + roundoff) ^ m * (1 - roundoff) ^ m ≤ 1 := by
    rw [← mul_pow]
    refine pow_le_one₀ (mul_nonneg (by linarith) (by linarith)) ?_
    have : (1 + roundoff) * (1 - roundoff) = 1 - roundoff * roundoff := by ring
    rw [this]
    linarith [mul_pos hu hu]
  -- `t` bounds twice the number of operations times the error
  have ht : ((2 * m : Nat) : ℝ) * roundoff ≤ 2 ^ (-31 : ℤ) := by
    have h3 : ((2 * m : Nat) : ℝ) ≤ 2 ^ 22 := by
      have : 2 * m ≤ 2 ^ 22 := by omega
      exact_mod_cast this
    calc ((2 * m : Nat) : ℝ) * roundoff ≤ 2 ^ 22 * roundoff := mul_le_mul_of_nonneg_right h3 hu.le
      _ = 2 ^ (-31 : ℤ) := by
        unfold roundoff
        rw [← zpow_natCast, ← zpow_add₀ (by norm_num)]
        norm_num
  set t : ℝ := 2 ^ (-31 : ℤ) with htdef
  have ht0 : 0 < t := zpow2_pos _
  have ht1 : t ≤ 1 / 2 := by rw [htdef]; norm_num
  have h4 : 1 - t ≤ (1 - roundoff) ^ (2 * m) := by linarith
  have hp : 0 < (1 - roundoff) ^ m := pow_pos (by linarith) m
  have h5 : 1 ≤ nearFactor ^ 2 * (1 - roundoff) ^ (2 * m) := by
    have h6 : nearFactor ^ 2 = 1 + 2 * t + t * t := by unfold nearFactor; rw [← htdef]; ring
    have h7 : 0 ≤ nearFactor ^ 2 := sq_nonneg _
    refine le_trans ?_ (mul_le_mul_of_nonneg_left h4 h7)
    rw [h6]
    exact slack_aux ht0 ht1
  calc (1 + roundoff) ^ m ≤ (1 + roundoff) ^ m * (nearFactor ^ 2 * (1 - roundoff) ^ (2 * m)) := le_mul_of_one_le_right (pow_nonneg (by linarith) m) h5
    _ = nearFactor ^ 2 * ((1 + roundoff) ^ m * (1 - roundoff) ^ m) * (1 - roundoff) ^ m := by ring
    _ ≤ nearFactor ^ 2 * 1 * (1 - roundoff) ^ m := by
      exact mul_le_mul_of_nonneg_right (mul_le_mul_of_nonneg_left h2 (sq_nonneg _)) hp.le
    _ = _ := by ring

/-- Compare squares that are known up to the errors of `m` operations. -/
theorem le_of_sq_error {a b : ℝ} (hb : 0 ≤ b) {m : Nat} (hm : m ≤ 2 ^ 20 + 8) (h : (1 - roundoff) ^ m * a ^ 2 ≤ (1 + roundoff) ^ m * b ^ 2) : a ≤ nearFactor * b := by
  have hp : 0 < (1 - roundoff) ^ m := pow_pos (by linarith [ulp_lt]) m
  have h1 : (1 - roundoff) ^ m * a ^ 2 ≤ (1 - roundoff) ^ m * (nearFactor * b) ^ 2 := by
    refine h.trans ?_
    calc (1 + roundoff) ^ m * b ^ 2 ≤ nearFactor ^ 2 * (1 - roundoff) ^ m * b ^ 2 := mul_le_mul_of_nonneg_right (slack_le hm) (sq_nonneg b)
      _ = _ := by ring
  have h2 : a ^ 2 ≤ (nearFactor * b) ^ 2 := le_of_mul_le_mul_left h1 hp
  exact le_of_sq_le_sq h2 (mul_nonneg (zero_le_one.trans nearFactor_one) hb)
where
  le_of_sq_le_sq {a b : ℝ} (h : a ^ 2 ≤ b ^ 2) (hb : 0 ≤ b) : a ≤ b := (le_abs_self a).trans (by rw [← abs_of_nonneg hb]; exact sq_le_sq.1 h)

theorem eudist_nonneg (ds : DataSet Dbl) (i j : Nat) : 0 ≤ ds.eudist i j := _root_.dist_nonneg

theorem eudist_metric (ds : DataSet Dbl) : Metric ds.eudist where
  self x := _root_.dist_self _
  symm x y := _root_.dist_comm _ _
  triangle x y z := _root_.dist_triangle _ _ _

/-- A point that is not farther away as computed is not much farther away. -/
theorem noFarther_near {ds : DataSet Dbl} (h : ds.Moderate) {q x y : Nat} (hq : q < ds.n) (hx : x < ds.n) (hy : y < ds.n) (hle : ds.NoFarther q x y) :
    ds.eudist q x ≤ nearFactor * ds.eudist q y := by
  obtain ⟨a, ha, -, -, -, ha1, ha2⟩ := sqd_error h hq hx
  obtain ⟨b, hb, -, -, -, hb1, hb2⟩ := sqd_error h hq hy
  unfold DataSet.NoFarther at hle
  rw [ha, hb, Dbl.le_fin] at hle
  exact le_of_sq_error (eudist_nonneg _ _ _) (by have := h.dims; omega) (ha1.trans (hle.trans hb2))

/-- A radius for which no overflow or underflow occurs. -/
theorem within_near {ds : DataSet Dbl} (h : ds.Moderate) {q x : Nat} (hq : q < ds.n) (hx : x < ds.n) {r : ℝ} (hr : 0 ≤ r) (hm : Mid 500 r) (hw : ds.Within q x (.fin r)) :
    ds.eudist q x ≤ nearFactor * r := by
  have hu := ulp_pos
  have hu' := ulp_lt
  obtain ⟨a, ha, -, -, -, ha1, ha2⟩ := sqd_error h hq hx
  have hm2 : Mid 1000 (r * r) := by
    rcases hm with h2 | ⟨h2, h3⟩
    · exact Or.inl (by rw [h2, mul_zero])
    · right
      rw [abs_mul]
      have e1 : (2 : ℝ) ^ (-1000 : ℤ) = 2 ^ (-500 : ℤ) * 2 ^ (-500 : ℤ) := by rw [← zpow_add₀ (by norm_num)]; norm_num
      have e2 : (2 : ℝ) ^ (1000 : ℤ) = 2 ^ (500 : ℤ) * 2 ^ (500 : ℤ) := by rw [← zpow_add₀ (by norm_num)]; norm_num
      rw [e1, e2]
      exact ⟨mul_le_mul h2 h2 (zpow2_pos _).le (abs_nonneg _), mul_le_mul h3 h3 (abs_nonneg _) (zpow2_pos _).le⟩
  have h1 : FloatOps.mul (Dbl.fin r) (.fin r) = .fin (nearest53 (r * r)) := hm2.fin (by norm_num) (by norm_num)
  unfold DataSet.Within at hw
  rw [h1, ha] at hw
  have h2 : a ≤ nearest53 (r * r) := by
    by_contra hlt
    push Not at hlt
    have : FloatOps.lt (Dbl.fin (nearest53 (r * r))) (.fin a) = true := by
      rw [Dbl.lt_iff (by simp) (by simp)]
      exact EReal.coe_lt_coe_iff.2 hlt
    rw [this] at hw
    cases hw
  have h3 := (pos_rel (mul_self_nonneg r) (hm2.error (by norm_num))).2
  refine le_of_sq_error (m := ds.dims + 3) hr (by have := h.dims; omega) (ha1.trans (h2.trans (h3.trans ?_)))
  rw [← pow_two]
  refine mul_le_mul_of_nonneg_right ?_ (sq_nonneg r)
  exact le_self_pow₀ (by linarith) (by omega)

/-- Computed distances are right up to a small factor. -/
theorem dist_near {ds : DataSet Dbl} (h : ds.Moderate) {i j : Nat} (hi : i < ds.n) (hj : j < ds.n) :
    ∃ x, ds.dist i j = .fin x ∧ 0 ≤ x ∧ x ≤ nearFactor * ds.eudist i j ∧ ds.eudist i j ≤ nearFactor * x := by
  have hu := ulp_pos
  have hu' := ulp_lt
  obtain ⟨x, h1, h2, -, h3, h4⟩ := dist_error h hi hj
  refine ⟨x, h1, h2, le_of_sq_error (m := ds.dims + 5) (eudist_nonneg _ _ _) (by have := h.dims; omega) ?_, le_of_sq_error (m := ds.dims + 5) h2 (by have := h.dims; omega) ?_⟩
  · exact (mul_le_of_le_one_left (sq_nonneg x) (pow_le_one₀ (by linarith) (by linarith))).trans h4
  · exact h3.trans (le_mul_of_one_le_left (sq_nonneg x) (one_le_pow₀ (by linarith)))

/-- The built-in search finds the nearest points up to a small factor. -/
noncomputable def doubleSpi {ds : DataSet Dbl} (h : ds.Moderate) : SpiOk (builtinSpi (some ds)) ds.n (NearestUpTo nearFactor ds.eudist ds.Within) ds.dist False :=
  builtinSpi_implied Dbl.laws ds h.finite.complete (fun i j hi hj => (h.finite.metric.sqnum i j hi hj).1) fun _ _ _ hq hx hy hxy => noFarther_near h hq hx hy hxy

end Scc
