/-
Rounding to `double`: it keeps the order, is symmetric, leaves numbers with 53 bits alone, and has a relative error of at most 2^-53 unless the result is tiny.
-/
import Verif.Model.Double
import Mathlib.Tactic.Linarith
import Mathlib.Tactic.Positivity
import Mathlib.Tactic.FieldSimp
import Mathlib.Tactic.NormNum

set_option linter.unusedSimpArgs false

namespace Scc

theorem roundEven_near (x : ℝ) : |x - roundEven x| < 1 / 2 ∨ |x - roundEven x| = 1 / 2 ∧ roundEven x % 2 = 0 := by
  have h0 := Int.floor_le x
  have h1 := Int.lt_floor_add_one x
  unfold roundEven
  split
  · rename_i h
    left
    rw [abs_lt]; constructor <;> linarith
  · rename_i h
    split
    · rename_i h'
      left
      push_cast
      rw [abs_lt]; constructor <;> linarith
    · rename_i h'
      have he : x - ⌊x⌋ = 1 / 2 := le_antisymm (not_lt.1 h') (not_lt.1 h)
      right
      split
      · rename_i h2
        exact ⟨by rw [he]; norm_num, h2⟩
      · rename_i h2
        refine ⟨?_, by omega⟩
        push_cast
        rw [show x - (⌊x⌋ + 1) = -(1 / 2) by linarith]
        norm_num

theorem roundEven_unique {x : ℝ} {n : ℤ} (h : |x - n| < 1 / 2 ∨ |x - n| = 1 / 2 ∧ n % 2 = 0) : roundEven x = n := by
  have key : ∀ (a b : ℤ), a < b → (|x - a| < 1 / 2 ∨ |x - a| = 1 / 2 ∧ a % 2 = 0) → (|x - b| < 1 / 2 ∨ |x - b| = 1 / 2 ∧ b % 2 = 0) → False := by
    intro a b hab ha hb
    have ha' : x - a ≤ 1 / 2 := (le_abs_self _).trans (ha.elim le_of_lt fun h => h.1.le)
    have hb' : (b : ℝ) - x ≤ 1 / 2 := (neg_sub x (b : ℝ) ▸ neg_le_abs (x - b)).trans (hb.elim le_of_lt fun h => h.1.le)
    have h1 : (a : ℝ) + 1 ≤ b := by exact_mod_cast hab
    have e1 : x - a = 1 / 2 := by linarith
    have e2 : (b : ℝ) = a + 1 := by linarith
    have e3 : b = a + 1 := by exact_mod_cast e2
    have ha2 : a % 2 = 0 := by
      rcases ha with h | h
      · rw [e1] at h; norm_num at h
      · exact h.2
    have hb2 : b % 2 = 0 := by
      rcases hb with h | h
      · rw [show x - b = -(1 / 2) by linarith] at h; norm_num at h
      · exact h.2
    omega
  rcases lt_trichotomy (roundEven x) n with h1 | h1 | h1
  · exact (key _ _ h1 (roundEven_near x) h).elim
  · exact h1
  · exact (key _ _ h1 h (roundEven_near x)).elim

theorem roundEven_le_half (x : ℝ) : |roundEven x - x| ≤ 1 / 2 := by
  rw [abs_sub_comm]
  exact (roundEven_near x).elim le_of_lt fun h => h.1.le

theorem roundEven_neg (x : ℝ) : roundEven (-x) = -roundEven x := by
  apply roundEven_unique
  have h := roundEven_near x
  push_cast
  rw [show -x - -(roundEven x : ℝ) = -(x - roundEven x) by ring, abs_neg]
  rcases h with h | ⟨h, h'⟩
  · exact Or.inl h
  · exact Or.inr ⟨h, by omega⟩

theorem roundEven_int (n : ℤ) : roundEven n = n := roundEven_unique (Or.inl (by norm_num))

theorem roundEven_mono {x y : ℝ} (h : x ≤ y) : roundEven x ≤ roundEven y := by
  by_contra hlt
  push Not at hlt
  have h1 : (roundEven y : ℝ) + 1 ≤ roundEven x := by exact_mod_cast hlt
  have h2 := (abs_le.1 (roundEven_le_half x))
  have h3 := (abs_le.1 (roundEven_le_half y))
  have : x = y := by linarith [h2.1, h2.2, h3.1, h3.2]
  rw [this] at hlt
  exact lt_irrefl _ hlt

theorem lastBit_neg (x : ℝ) : lastBit (-x) = lastBit x := by rw [lastBit, lastBit, abs_neg]

theorem nearest53_neg (x : ℝ) : nearest53 (-x) = -nearest53 x := by
  unfold nearest53
  rw [lastBit_neg, neg_div, roundEven_neg]
  push_cast
  ring

theorem nearest53_zero : nearest53 0 = 0 := by
  unfold nearest53
  rw [zero_div]
  have := roundEven_int 0
  push_cast at this
  rw [this]
  simp

theorem zpow2_pos (e : ℤ) : (0 : ℝ) < 2 ^ e := zpow_pos (by norm_num) e

theorem abs_lt_lastBit (x : ℝ) : |x| < 2 ^ (lastBit x + 53) := by
  have h : |x| < 2 ^ (Int.log 2 |x| + 1) := by exact_mod_cast Int.lt_zpow_succ_log_self (b := 2) (by norm_num) |x|
  refine h.trans_le (zpow_le_zpow_right₀ (by norm_num) ?_)
  unfold lastBit
  omega

theorem lastBit_le {x : ℝ} (hx : x ≠ 0) (h : -1074 < lastBit x) : (2 : ℝ) ^ (lastBit x + 52) ≤ |x| := by
  have h1 : (2 : ℝ) ^ Int.log 2 |x| ≤ |x| := by exact_mod_cast Int.zpow_log_le_self (b := 2) (by norm_num) (abs_pos.2 hx)
  have h2 : lastBit x + 52 = Int.log 2 |x| := by unfold lastBit at h ⊢; omega
  rwa [h2]

theorem lastBit_ge (x : ℝ) : -1074 ≤ lastBit x := le_max_right _ _

theorem lastBit_mono {x y : ℝ} (hx : 0 < x) (h : x ≤ y) : lastBit x ≤ lastBit y := by
  have := Int.log_mono_right (b := 2) (abs_pos.2 hx.ne') (show |x| ≤ |y| by rwa [abs_of_pos hx, abs_of_pos (hx.trans_le h)])
  unfold lastBit
  omega

/-- A number with 53 bits is not changed. -/
theorem nearest53_rep (m e : ℤ) (hm : |m| ≤ 2 ^ 53) (he : -1074 ≤ e) : nearest53 (m * 2 ^ e) = m * 2 ^ e := by
  by_cases h0 : m = 0
  · subst h0; simp [nearest53_zero]
  -- the last bit is not above `e`, or `m` is a power of two
  have hx : (m * 2 ^ e : ℝ) ≠ 0 := mul_ne_zero (by exact_mod_cast h0) (zpow2_pos e).ne'
  have habs : |(m * 2 ^ e : ℝ)| = (|m| : ℤ) * 2 ^ e := by rw [abs_mul, abs_of_pos (zpow2_pos e)]; push_cast; rfl
  have hkey : ∃ j : ℤ, (m * 2 ^ e : ℝ) / 2 ^ lastBit (m * 2 ^ e) = j := by
    by_cases hle : lastBit (m * 2 ^ e) ≤ e
    · obtain ⟨t, ht⟩ := Int.eq_ofNat_of_zero_le (show 0 ≤ e - lastBit (m * 2 ^ e) by omega)
      refine ⟨m * 2 ^ t, ?_⟩
      push_cast
      rw [mul_div_assoc, ← zpow_sub₀ (by norm_num), ht]
      norm_cast
    · push Not at hle
      have h1 := lastBit_le hx (by omega)
      rw [habs] at h1
      have h2 : (2 : ℝ) ^ (e + 53) ≤ 2 ^ (lastBit (m * 2 ^ e) + 52) := zpow_le_zpow_right₀ (by norm_num) (by omega)
      have h3 : (2 : ℝ) ^ (e + 53) = 2 ^ 53 * 2 ^ e := by rw [zpow_add₀ (by norm_num), mul_comm]; norm_cast
      have h4 : ((2 ^ 53 : ℤ) : ℝ) * 2 ^ e ≤ (|m| : ℤ) * 2 ^ e := by push_cast at h1 ⊢; linarith
      have h5 : (2 ^ 53 : ℤ) ≤ |m| := by exact_mod_cast le_of_mul_le_mul_right h4 (zpow2_pos e)
      have h6 : |m| = 2 ^ 53 := le_antisymm hm h5
      have h7 : lastBit (m * 2 ^ e) = e + 1 := by
        unfold lastBit
        rw [habs, h6]
        have : (((2 ^ 53 : ℤ) : ℝ) * 2 ^ e) = ((2 : ℕ) : ℝ) ^ (e + 53) := by push_cast; rw [h3]; norm_num
        rw [this, Int.log_zpow (by norm_num)]
        omega
      have h8 : m = 2 ^ 53 ∨ m = -2 ^ 53 := abs_eq (by norm_num) |>.1 h6
      rw [h7, zpow_add₀ (by norm_num)]
      rcases h8 with h8 | h8
      · refine ⟨2 ^ 52, ?_⟩
        rw [h8]
        have := (zpow2_pos e).ne'
        push_cast
        field_simp
        norm_num
      · refine ⟨-2 ^ 52, ?_⟩
        rw [h8]
        have := (zpow2_pos e).ne'
        push_cast
        field_simp
        norm_num
  obtain ⟨j, hj⟩ := hkey
  unfold nearest53
  rw [hj, roundEven_int, ← hj, div_mul_cancel₀ _ (zpow2_pos _).ne']

theorem nearest53_zpow (e : ℤ) (he : -1074 ≤ e) : nearest53 (2 ^ e) = 2 ^ e := by
  have := nearest53_rep 1 e (by norm_num) he
  push_cast at this
  simpa using this

theorem nearest53_nonneg {x : ℝ} (h : 0 ≤ x) : 0 ≤ nearest53 x := by
  unfold nearest53
  have h1 : roundEven 0 ≤ roundEven (x / 2 ^ lastBit x) := roundEven_mono (div_nonneg h (zpow2_pos _).le)
  have h2 := roundEven_int 0
  push_cast at h2
  rw [h2] at h1
  exact mul_nonneg (by exact_mod_cast h1) (zpow2_pos _).le

theorem nearest53_mono_pos {x y : ℝ} (hx : 0 < x) (h : x ≤ y) : nearest53 x ≤ nearest53 y := by
  rcases (lastBit_mono hx h).lt_or_eq with hlt | heq
  · -- different last bits: a power of two is between them
    have hy : 0 < y := hx.trans_le h
    have h1 : nearest53 x ≤ 2 ^ (lastBit x + 53) := by
      unfold nearest53
      have h2 : x / 2 ^ lastBit x ≤ ((2 ^ 53 : ℤ) : ℝ) := by
        rw [div_le_iff₀ (zpow2_pos _)]
        have := (abs_lt_lastBit x).le
        rw [abs_of_pos hx, zpow_add₀ (by norm_num)] at this
        push_cast
        rw [mul_comm]
        exact_mod_cast this
      have h3 := roundEven_mono h2
      rw [roundEven_int] at h3
      have h4 : (roundEven (x / 2 ^ lastBit x) : ℝ) ≤ ((2 ^ 53 : ℤ) : ℝ) := by exact_mod_cast h3
      rw [zpow_add₀ (by norm_num), mul_comm]
      have := mul_le_mul_of_nonneg_left h4 (zpow2_pos (lastBit x)).le
      push_cast at this
      exact_mod_cast this
    have h2 : (2 : ℝ) ^ (lastBit y + 52) ≤ nearest53 y := by
      unfold nearest53
      have h2 : ((2 ^ 52 : ℤ) : ℝ) ≤ y / 2 ^ lastBit y := by
        rw [le_div_iff₀ (zpow2_pos _)]
        have := lastBit_le hy.ne' (by have := lastBit_ge x; omega)
        rw [abs_of_pos hy, zpow_add₀ (by norm_num)] at this
        push_cast
        rw [mul_comm]
        exact_mod_cast this
      have h3 := roundEven_mono h2
      rw [roundEven_int] at h3
      have h4 : ((2 ^ 52 : ℤ) : ℝ) ≤ (roundEven (y / 2 ^ lastBit y) : ℝ) := by exact_mod_cast h3
      rw [zpow_add₀ (by norm_num), mul_comm]
      have := mul_le_mul_of_nonneg_right h4 (zpow2_pos (lastBit y)).le
      push_cast at this
      exact_mod_cast this
    exact h1.trans ((zpow_le_zpow_right₀ (by norm_num) (by omega)).trans h2)
  · unfold nearest53
    rw [heq]
    refine mul_le_mul_of_nonneg_right ?_ (zpow2_pos _).le
    exact_mod_cast roundEven_mono (div_le_div_of_nonneg_right h (zpow2_pos _).le)

theorem nearest53_mono {x y : ℝ} (h : x ≤ y) : nearest53 x ≤ nearest53 y := by
  rcases lt_or_ge 0 x with hx | hx
  · exact nearest53_mono_pos hx h
  · rcases lt_or_ge y 0 with hy | hy
    · have := nearest53_mono_pos (neg_pos.2 hy) (neg_le_neg h)
      rw [nearest53_neg, nearest53_neg] at this
      exact neg_le_neg_iff.1 this
    · have h1 := nearest53_nonneg (neg_nonneg.2 hx)
      rw [nearest53_neg] at h1
      exact (neg_nonneg.1 h1).trans (nearest53_nonneg hy)

/-- The relative error of rounding to 53 bits is at most 2^-53, unless the result is tiny. -/
theorem nearest53_error {x : ℝ} (h : x = 0 ∨ 2 ^ (-1022 : ℤ) ≤ |x|) : |nearest53 x - x| ≤ 2 ^ (-53 : ℤ) * |x| := by
  rcases h with rfl | h
  · rw [nearest53_zero]; simp
  have hx : x ≠ 0 := by
    rintro rfl
    rw [abs_zero] at h
    exact absurd (zpow2_pos (-1022)) (not_lt.2 h)
  have h1 : (2 : ℝ) ^ (lastBit x + 52) ≤ |x| := by
    have h2 : -1022 ≤ Int.log 2 |x| := (Int.zpow_le_iff_le_log (b := 2) (by norm_num) (abs_pos.2 hx)).1 (by exact_mod_cast h)
    have h1 : (2 : ℝ) ^ Int.log 2 |x| ≤ |x| := by exact_mod_cast Int.zpow_log_le_self (b := 2) (by norm_num) (abs_pos.2 hx)
    have h3 : lastBit x + 52 = Int.log 2 |x| := by unfold lastBit; omega
    rwa [h3]
  have hp := zpow2_pos (lastBit x)
  have h2 : nearest53 x - x = (roundEven (x / 2 ^ lastBit x) - x / 2 ^ lastBit x) * 2 ^ lastBit x := by
    unfold nearest53
    rw [sub_mul, div_mul_cancel₀ _ hp.ne']
  rw [h2, abs_mul, abs_of_pos hp]
  calc |(roundEven (x / 2 ^ lastBit x) - x / 2 ^ lastBit x : ℝ)| * 2 ^ lastBit x ≤ 1 / 2 * 2 ^ lastBit x := mul_le_mul_of_nonneg_right (roundEven_le_half _) hp.le
    _ = 2 ^ (-53 : ℤ) * 2 ^ (lastBit x + 52) := by
      rw [← zpow_add₀ (by norm_num), show (-53 : ℤ) + (lastBit x + 52) = -1 + lastBit x by ring, zpow_add₀ (by norm_num)]
      norm_num
    _ ≤ 2 ^ (-53 : ℤ) * |x| := mul_le_mul_of_nonneg_left h1 (zpow2_pos _).le

end Scc
