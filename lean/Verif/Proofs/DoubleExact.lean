/-
Rounding in `double` gives a closest number with 53 bits; distances of points with small integer coordinates.
-/
import Verif.Proofs.DoubleNear

set_option linter.unusedSimpArgs false

namespace Scc

theorem roundEven_closest (x : ℝ) (k : ℤ) : |roundEven x - x| ≤ |k - x| := by
  by_contra h
  push Not at h
  have h1 := roundEven_le_half x
  have h2 : |((roundEven x - k : ℤ) : ℝ)| < 1 := by
    push_cast
    calc |(roundEven x : ℝ) - k| = |(roundEven x - x) - (k - x)| := by ring_nf
      _ ≤ |(roundEven x : ℝ) - x| + |(k : ℝ) - x| := abs_sub _ _
      _ < 1 / 2 + 1 / 2 := by linarith
      _ = 1 := by norm_num
  have h3 : |roundEven x - k| < 1 := by exact_mod_cast h2
  have h4 : roundEven x = k := by
    have := Int.abs_lt_one_iff.1 h3
    omega
  rw [h4] at h
  exact lt_irrefl _ h

theorem nearest53_grid (x : ℝ) (k : ℤ) : |nearest53 x - x| ≤ |k * 2 ^ lastBit x - x| := by
  have hu := zpow2_pos (lastBit x)
  have h := roundEven_closest (x / 2 ^ lastBit x) k
  have e : ∀ z : ℝ, |z * 2 ^ lastBit x - x| = |z - x / 2 ^ lastBit x| * 2 ^ lastBit x := by
    intro z
    rw [← abs_of_pos hu, ← abs_mul, abs_of_pos hu, sub_mul, div_mul_cancel₀ _ hu.ne']
  unfold nearest53
  rw [e, e]
  exact mul_le_mul_of_nonneg_right h hu.le

theorem nearest53_closest (x y : ℝ) (hy : Has53Bits y) : |nearest53 x - x| ≤ |y - x| := by
  obtain ⟨m, e, hm, he, rfl⟩ := hy
  by_cases hel : lastBit x ≤ e
  · have h1 : (m : ℝ) * 2 ^ e = ((m * 2 ^ (e - lastBit x).toNat : ℤ) : ℝ) * 2 ^ lastBit x := by
      push_cast
      rw [mul_assoc, ← zpow_natCast, ← zpow_add₀ (by norm_num)]
      congr 2
      omega
    rw [h1]
    exact nearest53_grid x _
  · push Not at hel
    by_cases hx : x = 0
    · rw [hx, nearest53_zero, sub_self, abs_zero]; exact abs_nonneg _
    have h2 := lastBit_le hx (by omega)
    have h3 : |(m : ℝ) * 2 ^ e| ≤ 2 ^ (lastBit x + 52) := by
      rw [abs_mul, abs_of_pos (zpow2_pos e)]
      have h4 : |(m : ℝ)| ≤ 2 ^ (53 : ℤ) := by
        have : |m| ≤ 2 ^ 53 := hm.le
        exact_mod_cast this
      calc |(m : ℝ)| * 2 ^ e ≤ 2 ^ (53 : ℤ) * 2 ^ (lastBit x - 1) :=
            mul_le_mul h4 (zpow_le_zpow_right₀ (by norm_num) (by omega)) (zpow2_pos e).le (zpow2_pos _).le
        _ = 2 ^ (lastBit x + 52) := by rw [← zpow_add₀ (by norm_num)]; congr 1; omega
    have e52 : (2 : ℝ) ^ (lastBit x + 52) = ((2 ^ 52 : ℤ) : ℝ) * 2 ^ lastBit x := by
      rw [add_comm, zpow_add₀ (by norm_num)]
      norm_num
    have h5 := abs_le.1 h3
    rcases le_total 0 x with h0 | h0
    · rw [abs_of_nonneg h0] at h2
      refine (nearest53_grid x (2 ^ 52)).trans ?_
      rw [← e52, abs_sub_comm, abs_of_nonneg (by linarith), abs_sub_comm, abs_of_nonneg (by linarith)]
      linarith
    · rw [abs_of_nonpos h0] at h2
      refine (nearest53_grid x (-2 ^ 52)).trans ?_
      have e52' : ((-2 ^ 52 : ℤ) : ℝ) * 2 ^ lastBit x = -(2 : ℝ) ^ (lastBit x + 52) := by rw [e52]; push_cast; ring
      rw [e52', abs_of_nonneg (by linarith), abs_of_nonneg (by linarith)]
      linarith

theorem nearest53_bits (x : ℝ) : Has53Bits (nearest53 x) := by
  have hu := zpow2_pos (lastBit x)
  have h1 : |(x / 2 ^ lastBit x)| < 2 ^ (53 : ℤ) := by
    rw [abs_div, abs_of_pos hu, div_lt_iff₀ hu, ← zpow_add₀ (by norm_num), add_comm]
    exact abs_lt_lastBit x
  have h2 : |roundEven (x / 2 ^ lastBit x)| ≤ 2 ^ 53 := by
    have h3 := abs_lt.1 h1
    have e : (2 : ℝ) ^ (53 : ℤ) = ((2 ^ 53 : ℤ) : ℝ) := by norm_num
    rw [abs_le]
    constructor
    · have := roundEven_mono (x := ((-2 ^ 53 : ℤ) : ℝ)) (y := x / 2 ^ lastBit x) (by push_cast; rw [e] at h3; push_cast at h3; linarith [h3.1])
      rwa [roundEven_int] at this
    · have := roundEven_mono (y := ((2 ^ 53 : ℤ) : ℝ)) (x := x / 2 ^ lastBit x) (by rw [← e]; exact h3.2.le)
      rwa [roundEven_int] at this
  rcases lt_or_eq_of_le h2 with h2 | h2
  · exact ⟨_, _, h2, lastBit_ge x, rfl⟩
  · unfold nearest53
    rcases abs_choice (roundEven (x / 2 ^ lastBit x)) with h | h
    · refine ⟨2 ^ 52, lastBit x + 1, by norm_num, by have := lastBit_ge x; omega, ?_⟩
      rw [← h, h2, zpow_add₀ (by norm_num)]
      push_cast; ring
    · refine ⟨-2 ^ 52, lastBit x + 1, by norm_num, by have := lastBit_ge x; omega, ?_⟩
      have h3 : roundEven (x / 2 ^ lastBit x) = -2 ^ 53 := by omega
      rw [h3, zpow_add₀ (by norm_num)]
      push_cast; ring

theorem nearest53_int {z : ℤ} (h : |z| ≤ 2 ^ 53) : nearest53 z = z := by
  have := nearest53_rep z 0 h (by norm_num)
  rwa [zpow_zero, mul_one] at this

theorem round_int {z : ℤ} (h : |z| ≤ 2 ^ 53) : Dbl.round z = .fin z := by
  rw [round_eq_fin, nearest53_int h]
  rw [nearest53_int h]
  have h1 : |(z : ℝ)| ≤ 2 ^ (53 : ℤ) := by exact_mod_cast h
  exact h1.trans ((zpow_le_zpow_right₀ (by norm_num) (by norm_num)).trans zpow_le_maxDouble)

theorem sqd_integers {ds : DataSet Dbl} (h : ds.SmallIntegers) {i j : Nat} (hi : i < ds.n) (hj : j < ds.n) : ds.sqd i j = .fin (ds.eudist i j ^ 2) := by
  have key : ∀ k, k ≤ ds.dims → ∃ S : ℤ, (S : ℝ) = ∑ t ∈ Finset.range k, (ds.realCoord i t - ds.realCoord j t) ^ 2 ∧
      (List.range k).foldl (fun acc t => FloatOps.add acc (ds.sqTerm i j t)) (FloatOps.zero : Dbl) = .fin S := by
    intro k
    induction k with
    | zero => exact fun _ => ⟨0, by simp, by simp [FloatOps.zero]⟩
    | succ k ih =>
      intro hk
      obtain ⟨S, h1, h2⟩ := ih (by omega)
      obtain ⟨a, ha⟩ := h.integer i k hi (by omega)
      obtain ⟨b, hb⟩ := h.integer j k hj (by omega)
      have hsum : ((S + (a - b) ^ 2 : ℤ) : ℝ) = ∑ t ∈ Finset.range (k + 1), (ds.realCoord i t - ds.realCoord j t) ^ 2 := by
        rw [Finset.sum_range_succ, ← h1, ha, hb]; push_cast; ring
      have hS0 : 0 ≤ S := by
        have : (0 : ℝ) ≤ S := by rw [h1]; exact Finset.sum_nonneg fun _ _ => sq_nonneg _
        exact_mod_cast this
      have hle : S + (a - b) ^ 2 ≤ 2 ^ 53 := by
        have h3 : ((S + (a - b) ^ 2 : ℤ) : ℝ) ≤ 2 ^ 53 := by
          rw [hsum]
          refine le_trans ?_ (h.bound i j hi hj)
          rw [eudist_sq]
          exact Finset.sum_le_sum_of_subset_of_nonneg (Finset.range_mono hk) fun _ _ _ => sq_nonneg _
        exact_mod_cast h3
      have hsq : (a - b) ^ 2 ≤ 2 ^ 53 := by linarith
      have hab : |a - b| ≤ 2 ^ 53 := by
        rw [← sq_abs] at hsq
        have h0 := abs_nonneg (a - b)
        by_contra hgt
        push Not at hgt
        have : |a - b| ≤ |a - b| ^ 2 := le_self_pow₀ (by omega) (by norm_num)
        omega
      refine ⟨S + (a - b) ^ 2, hsum, ?_⟩
      have hterm : ds.sqTerm i j k = .fin ((a - b) ^ 2 : ℤ) := by
        unfold DataSet.sqTerm
        rw [h.finite.coord_eq hi (by omega), h.finite.coord_eq hj (by omega), Dbl.sub_fin, ha, hb, ← Int.cast_sub, round_int hab]
        show Dbl.round (((a - b : ℤ) : ℝ) * ((a - b : ℤ) : ℝ)) = _
        rw [← Int.cast_mul, ← pow_two, round_int (by rw [abs_of_nonneg (sq_nonneg _)]; exact hsq)]
      rw [List.range_succ, List.foldl_append, h2, List.foldl_cons, List.foldl_nil, hterm]
      show Dbl.round ((S : ℝ) + ((a - b) ^ 2 : ℤ)) = _
      rw [← Int.cast_add, round_int (by rw [abs_of_nonneg (add_nonneg hS0 (sq_nonneg _))]; exact hle)]
  obtain ⟨S, h1, h2⟩ := key ds.dims le_rfl
  rw [eudist_sq, ← h1]
  exact h2

theorem noFarther_integers {ds : DataSet Dbl} (h : ds.SmallIntegers) {q x y : Nat} (hq : q < ds.n) (hx : x < ds.n) (hy : y < ds.n) : ds.NoFarther q x y ↔ ds.eudist q x ≤ ds.eudist q y := by
  unfold DataSet.NoFarther
  rw [sqd_integers h hq hx, sqd_integers h hq hy, Dbl.le_fin, sq_le_sq₀ (eudist_nonneg _ _ _) (eudist_nonneg _ _ _)]

theorem dist_integers {ds : DataSet Dbl} (h : ds.SmallIntegers) {i j : Nat} (hi : i < ds.n) (hj : j < ds.n) : ds.dist i j = .fin (nearest53 (ds.eudist i j)) := by
  unfold DataSet.dist
  rw [sqd_integers h hi hj]
  show (if ds.eudist i j ^ 2 < 0 then Dbl.nan else Dbl.round (Real.sqrt (ds.eudist i j ^ 2))) = _
  rw [if_neg (not_lt.2 (sq_nonneg _)), Real.sqrt_sq (eudist_nonneg _ _ _)]
  apply round_eq_fin
  rw [abs_of_nonneg (nearest53_nonneg (eudist_nonneg _ _ _))]
  have h1 : ds.eudist i j ≤ 2 ^ (27 : ℤ) := by
    apply le_of_sq_le_sq₀ _ (by positivity)
    refine (h.bound i j hi hj).trans ?_
    norm_num
  exact (nearest53_le_zpow _ (by norm_num) h1).trans ((zpow_le_zpow_right₀ (by norm_num) (by norm_num)).trans zpow_le_maxDouble)
where
  le_of_sq_le_sq₀ {a b : ℝ} (h : a ^ 2 ≤ b ^ 2) (hb : 0 ≤ b) : a ≤ b := abs_le_of_sq_le_sq' h hb |>.2

/-- The built-in search finds the nearest points of points with small integer coordinates. -/
noncomputable def integersSpi {ds : DataSet Dbl} (h : ds.SmallIntegers) : SpiOk (builtinSpi (some ds)) ds.n (NearestBy ds.eudist ds.Within) ds.dist False :=
  builtinSpi_implied Dbl.laws ds h.finite.complete (fun i j hi hj => (h.finite.metric.sqnum i j hi hj).1) fun _ _ _ hq hx hy hxy => (noFarther_integers h hq hx hy).1 hxy

end Scc
