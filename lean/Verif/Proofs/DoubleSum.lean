/-
Sums, averages and extremes in `double`: values after a number of roundings.
-/
import Verif.Proofs.DoubleNear
import Verif.Spec.Exact
import Verif.Spec.Stats

set_option linter.unusedSimpArgs false

namespace Scc

/-- The number `d` is the nonnegative number `x` after at most `K` roundings; `x` is zero or of moderate size. -/
structure Rounded (K : Nat) (x : ℝ) (d : Dbl) : Prop where
  nonneg : 0 ≤ x
  mid : Mid 900 x
  val : ∃ y, d = .fin y ∧ (1 - roundoff) ^ K * x ≤ y ∧ y ≤ (1 + roundoff) ^ K * x

theorem mul_roundoff_le {K : Nat} (hK : K ≤ 2 ^ 52) : (K : ℝ) * roundoff ≤ 1 / 2 := by
  have h1 : (K : ℝ) ≤ 2 ^ 52 := by exact_mod_cast hK
  calc (K : ℝ) * roundoff ≤ 2 ^ 52 * roundoff := mul_le_mul_of_nonneg_right h1 ulp_pos.le
    _ = 1 / 2 := by unfold roundoff; norm_num

theorem down_ge (K : Nat) : 1 - K * roundoff ≤ (1 - roundoff) ^ K := by
  have hu' := ulp_lt
  have := one_add_mul_le_pow (show -2 ≤ -roundoff by linarith) K
  rw [← sub_eq_add_neg] at this
  linarith

theorem down_pos (K : Nat) : 0 < (1 - roundoff) ^ K := pow_pos (by linarith [ulp_lt]) K

theorem up_pos (K : Nat) : 0 < (1 + roundoff) ^ K := pow_pos (by linarith [ulp_pos]) K

theorem up_mul_down (K : Nat) : (1 + roundoff) ^ K * (1 - roundoff) ^ K ≤ 1 := by
  have hu := ulp_pos
  have hu' := ulp_lt
  rw [← mul_pow]
  refine pow_le_one₀ (mul_nonneg (by linarith) (by linarith)) ?_
  have : (1 + roundoff) * (1 - roundoff) = 1 - roundoff * roundoff := by ring
  rw [this]
  linarith [mul_pos hu hu]

theorem half_le_down {K : Nat} (hK : K ≤ 2 ^ 52) : 1 / 2 ≤ (1 - roundoff) ^ K := by
  linarith [down_ge K, mul_roundoff_le hK]

theorem up_le_aux {v a : ℝ} (hv : 0 ≤ v) (hv2 : v ≤ 1 / 2) (ha : 0 < a) (h : a * (1 - v) ≤ 1) : a ≤ 1 + 2 * v := by
  have h2 : v * v ≤ 1 / 2 * v := mul_le_mul_of_nonneg_right hv2 hv
  have h3 : 1 ≤ (1 - v) * (1 + 2 * v) := by
    have : (1 - v) * (1 + 2 * v) = 1 + v - 2 * (v * v) := by ring
    linarith
  calc a ≤ a * ((1 - v) * (1 + 2 * v)) := le_mul_of_one_le_right ha.le h3
    _ = (a * (1 - v)) * (1 + 2 * v) := by ring
    _ ≤ 1 * (1 + 2 * v) := mul_le_mul_of_nonneg_right h (by linarith)
    _ = _ := one_mul _

theorem up_le {K : Nat} (hK : K ≤ 2 ^ 52) : (1 + roundoff) ^ K ≤ 1 + 2 * (K * roundoff) := by
  refine up_le_aux (mul_nonneg (Nat.cast_nonneg K) ulp_pos.le) (mul_roundoff_le hK) (up_pos K) ?_
  exact (mul_le_mul_of_nonneg_left (down_ge K) (up_pos K).le).trans (up_mul_down K)

theorem up_le_two {K : Nat} (hK : K ≤ 2 ^ 52) : (1 + roundoff) ^ K ≤ 2 := by
  linarith [up_le hK, mul_roundoff_le hK]

theorem up_mono {K L : Nat} (h : K ≤ L) : (1 + roundoff) ^ K ≤ (1 + roundoff) ^ L := pow_le_pow_right₀ (by linarith [ulp_pos]) h

theorem down_anti {K L : Nat} (h : K ≤ L) : (1 - roundoff) ^ L ≤ (1 - roundoff) ^ K := pow_le_pow_of_le_one (by linarith [ulp_lt]) (by linarith [ulp_pos]) h

theorem Rounded.weaken {K L : Nat} {x : ℝ} {d : Dbl} (h : Rounded K x d) (hKL : K ≤ L) : Rounded L x d := by
  obtain ⟨h0, h1, y, h2, h3, h4⟩ := h
  exact ⟨h0, h1, y, h2, (mul_le_mul_of_nonneg_right (down_anti hKL) h0).trans h3, h4.trans (mul_le_mul_of_nonneg_right (up_mono hKL) h0)⟩

/-- The relative error. -/
theorem Rounded.error {K : Nat} {x : ℝ} {d : Dbl} (h : Rounded K x d) (hK : K ≤ 2 ^ 52) : ∃ y, d = .fin y ∧ |y - x| ≤ K * 2 ^ (-52 : ℤ) * x := by
  obtain ⟨h0, h1, y, h2, h3, h4⟩ := h
  refine ⟨y, h2, ?_⟩
  have e : (2 : ℝ) ^ (-52 : ℤ) = 2 * roundoff := by unfold roundoff; norm_num
  rw [e, abs_le]
  have h5 := mul_le_mul_of_nonneg_right (down_ge K) h0
  have h6 := mul_le_mul_of_nonneg_right (up_le hK) h0
  have h7 : 0 ≤ K * roundoff * x := mul_nonneg (mul_nonneg (Nat.cast_nonneg K) ulp_pos.le) h0
  have e2 : K * (2 * roundoff) * x = 2 * (K * roundoff * x) := by ring
  rw [e2]
  constructor
  · rw [sub_mul, one_mul] at h5; linarith
  · rw [add_mul, one_mul] at h6
    have : 2 * (K * roundoff) * x = 2 * (K * roundoff * x) := by ring
    linarith

/-- A value that is between the bounds stays in range. -/
theorem mid_of_bounds {K : Nat} (hK : K ≤ 2 ^ 52) {x z : ℝ} (h0 : 0 ≤ x) (hm : Mid 900 x) (h1 : (1 - roundoff) ^ K * x ≤ z) (h2 : z ≤ (1 + roundoff) ^ K * x) : 0 ≤ z ∧ Mid 901 z := by
  have hz : 0 ≤ z := (mul_nonneg (down_pos K).le h0).trans h1
  refine ⟨hz, ?_⟩
  rcases hm with rfl | ⟨h3, h4⟩
  · rw [mul_zero] at h2
    exact Or.inl (le_antisymm h2 hz)
  · right
    rw [abs_of_nonneg h0] at h3 h4
    rw [abs_of_nonneg hz]
    constructor
    · calc (2 : ℝ) ^ (-901 : ℤ) = 1 / 2 * 2 ^ (-900 : ℤ) := by
            rw [show (-901 : ℤ) = -1 + -900 by norm_num, zpow_add₀ (by norm_num)]; norm_num
        _ ≤ (1 - roundoff) ^ K * x := mul_le_mul (half_le_down hK) h3 (zpow2_pos _).le (down_pos K).le
        _ ≤ z := h1
    · calc z ≤ (1 + roundoff) ^ K * x := h2
        _ ≤ 2 * 2 ^ (900 : ℤ) := mul_le_mul (up_le_two hK) h4 h0 (by norm_num)
        _ = 2 ^ (901 : ℤ) := by rw [show (901 : ℤ) = 1 + 900 by norm_num, zpow_add₀ (by norm_num)]; norm_num

theorem Rounded.of_round {K : Nat} (hK : K ≤ 2 ^ 52) {x z : ℝ} (h0 : 0 ≤ x) (hm : Mid 900 x) (h1 : (1 - roundoff) ^ K * x ≤ z) (h2 : z ≤ (1 + roundoff) ^ K * x) : Rounded (K + 1) x (Dbl.round z) := by
  obtain ⟨hz, hzm⟩ := mid_of_bounds hK h0 hm h1 h2
  have herr := pos_rel (u := roundoff) hz (hzm.error (by norm_num))
  have hu := ulp_pos
  have hu' := ulp_lt
  refine ⟨h0, hm, nearest53 z, hzm.fin (by norm_num) (by norm_num), ?_, ?_⟩
  · rw [pow_succ', mul_assoc]
    exact (mul_le_mul_of_nonneg_left h1 (by linarith)).trans herr.1
  · rw [pow_succ', mul_assoc]
    exact herr.2.trans (mul_le_mul_of_nonneg_left h2 (by linarith))

theorem rounded_zero (K : Nat) : Rounded K 0 (FloatOps.zero : Dbl) := ⟨le_rfl, Or.inl rfl, 0, rfl, by simp, by simp⟩

theorem mid_add {x y : ℝ} (hx0 : 0 ≤ x) (hy0 : 0 ≤ y) (hx : Mid 900 x) (hy : Mid 900 y) (h : x + y ≤ 2 ^ (900 : ℤ)) : Mid 900 (x + y) := by
  rcases hx with rfl | hx
  · rwa [zero_add]
  · right
    rw [abs_of_nonneg hx0] at hx
    rw [abs_of_nonneg (add_nonneg hx0 hy0)]
    exact ⟨by linarith [hx.1], h⟩

theorem Rounded.add {K : Nat} (hK : K ≤ 2 ^ 52) {x y : ℝ} {a b : Dbl} (ha : Rounded K x a) (hb : Rounded K y b) (h : x + y ≤ 2 ^ (900 : ℤ)) : Rounded (K + 1) (x + y) (FloatOps.add a b) := by
  obtain ⟨hx0, hxm, v, rfl, h1, h2⟩ := ha
  obtain ⟨hy0, hym, v', rfl, h3, h4⟩ := hb
  refine Rounded.of_round hK (add_nonneg hx0 hy0) (mid_add hx0 hy0 hxm hym h) ?_ ?_ <;> rw [mul_add] <;> linarith

theorem Rounded.mul {K L : Nat} (hK : K + L ≤ 2 ^ 52) {x y : ℝ} {a b : Dbl} (ha : Rounded K x a) (hb : Rounded L y b) (h : Mid 900 (x * y)) : Rounded (K + L + 1) (x * y) (FloatOps.mul a b) := by
  obtain ⟨hx0, hxm, v, rfl, h1, h2⟩ := ha
  obtain ⟨hy0, hym, v', rfl, h3, h4⟩ := hb
  have hv : 0 ≤ v := (mul_nonneg (down_pos K).le hx0).trans h1
  have hv' : 0 ≤ v' := (mul_nonneg (down_pos L).le hy0).trans h3
  refine Rounded.of_round hK (mul_nonneg hx0 hy0) h ?_ ?_
  · calc (1 - roundoff) ^ (K + L) * (x * y) = ((1 - roundoff) ^ K * x) * ((1 - roundoff) ^ L * y) := by rw [pow_add]; ring
      _ ≤ v * v' := mul_le_mul h1 h3 (mul_nonneg (down_pos L).le hy0) hv
  · calc v * v' ≤ ((1 + roundoff) ^ K * x) * ((1 + roundoff) ^ L * y) := mul_le_mul h2 h4 hv' (mul_nonneg (up_pos K).le hx0)
      _ = (1 + roundoff) ^ (K + L) * (x * y) := by rw [pow_add]; ring

/-- Division loses at most twice the roundings of the divisor. -/
theorem one_le_down_up (L : Nat) : 1 ≤ (1 - roundoff) ^ L * (1 + roundoff) ^ (2 * L) := by
  have hu := ulp_pos
  have hu' : roundoff ≤ 1 / 2 := by unfold roundoff; norm_num
  rw [pow_mul, ← mul_pow]
  refine one_le_pow₀ ?_
  have h1 := slack_aux hu hu'
  have : (1 - roundoff) * (1 + roundoff) ^ 2 = (1 + 2 * roundoff + roundoff * roundoff) * (1 - roundoff) := by ring
  rwa [this]

theorem Rounded.div {K L : Nat} (hK : K + 2 * L ≤ 2 ^ 52) {x y : ℝ} {a b : Dbl} (ha : Rounded K x a) (hb : Rounded L y b) (hy : 0 < y) (h : Mid 900 (x / y)) :
    Rounded (K + 2 * L + 1) (x / y) (FloatOps.div a b) := by
  obtain ⟨hx0, hxm, v, rfl, h1, h2⟩ := ha
  obtain ⟨hy0, hym, v', rfl, h3, h4⟩ := hb
  have hv' : 0 < v' := (mul_pos (down_pos L) hy).trans_le h3
  have hq : 0 ≤ x / y := div_nonneg hx0 hy0
  have hx : x = x / y * y := (div_mul_cancel₀ x hy.ne').symm
  have e : FloatOps.div (Dbl.fin v) (.fin v') = Dbl.round (v / v') := by
    show (if v' = 0 then _ else Dbl.round (v / v')) = _
    rw [if_neg hv'.ne']
  rw [e]
  refine Rounded.of_round hK hq h ?_ ?_
  · rw [le_div_iff₀ hv']
    refine le_trans ?_ h1
    calc (1 - roundoff) ^ (K + 2 * L) * (x / y) * v' ≤ (1 - roundoff) ^ (K + L) * (x / y) * ((1 + roundoff) ^ L * y) :=
          mul_le_mul (mul_le_mul_of_nonneg_right (down_anti (by omega)) hq) h4 hv'.le (mul_nonneg (down_pos _).le hq)
      _ = ((1 + roundoff) ^ L * (1 - roundoff) ^ L) * ((1 - roundoff) ^ K * (x / y * y)) := by rw [pow_add]; ring
      _ ≤ 1 * ((1 - roundoff) ^ K * (x / y * y)) := mul_le_mul_of_nonneg_right (up_mul_down L) (mul_nonneg (down_pos K).le (mul_nonneg hq hy0))
      _ = (1 - roundoff) ^ K * x := by rw [one_mul, ← hx]
  · rw [div_le_iff₀ hv']
    refine h2.trans ?_
    calc (1 + roundoff) ^ K * x = 1 * ((1 + roundoff) ^ K * (x / y * y)) := by rw [one_mul, ← hx]
      _ ≤ ((1 - roundoff) ^ L * (1 + roundoff) ^ (2 * L)) * ((1 + roundoff) ^ K * (x / y * y)) :=
          mul_le_mul_of_nonneg_right (one_le_down_up L) (mul_nonneg (up_pos K).le (mul_nonneg hq hy0))
      _ = (1 + roundoff) ^ (K + 2 * L) * (x / y) * ((1 - roundoff) ^ L * y) := by rw [pow_add]; ring
      _ ≤ (1 + roundoff) ^ (K + 2 * L) * (x / y) * v' := mul_le_mul_of_nonneg_left h3 (mul_nonneg (up_pos _).le hq)

theorem mid_nat {n : Nat} (h : n ≤ 2 ^ 64) : Mid 900 (n : ℝ) := by
  rcases Nat.eq_zero_or_pos n with rfl | h0
  · exact Or.inl (by simp)
  · right
    rw [abs_of_nonneg (Nat.cast_nonneg n)]
    have h1 : (1 : ℝ) ≤ n := by exact_mod_cast h0
    have h2 : (n : ℝ) ≤ 2 ^ 64 := by exact_mod_cast h
    constructor
    · exact (zpow_le_one_of_nonpos₀ (by norm_num) (by norm_num)).trans h1
    · refine h2.trans ?_
      rw [← zpow_natCast]
      exact zpow_le_zpow_right₀ (by norm_num) (by norm_num)

theorem rounded_ofNat {n : Nat} (h : n ≤ 2 ^ 64) : Rounded 1 n (FloatOps.ofNat n : Dbl) :=
  Rounded.of_round (K := 0) (Nat.zero_le _) (Nat.cast_nonneg n) (mid_nat h) (by simp) (by simp)

/-- Sums of lists, starting with a value. -/
theorem Rounded.foldl {K : Nat} {xs : List ℝ} {l : List Dbl} (h : List.Forall₂ (Rounded K) xs l) : ∀ (L : Nat) (s : ℝ) (a : Dbl), K ≤ L → L + xs.length ≤ 2 ^ 52 → Rounded L s a → s + xs.sum ≤ 2 ^ (900 : ℤ) →
    Rounded (L + xs.length) (xs.foldl FloatOps.add s) (l.foldl FloatOps.add a) := by
  induction h with
  | nil => intro L s a _ _ ha _; exact ha
  | @cons x d xs l hx hl ih =>
    intro L s a hKL hlen ha hs
    rw [List.length_cons] at hlen
    rw [List.sum_cons] at hs
    have hpos : 0 ≤ xs.sum := List.sum_nonneg fun y hy => by
      obtain ⟨d', -, h⟩ := mem_of_forall₂ hl hy
      exact h.nonneg
    have h1 := ha.add (by omega) (hx.weaken hKL) (by linarith)
    have h2 := ih (L + 1) _ _ (by omega) (by omega) h1 (by linarith)
    rw [List.length_cons, show L + (xs.length + 1) = L + 1 + xs.length by omega]
    exact h2
where
  mem_of_forall₂ {α β : Type} {R : α → β → Prop} {xs : List α} {l : List β} (h : List.Forall₂ R xs l) {x : α} (hx : x ∈ xs) : ∃ d ∈ l, R x d := by
    induction h with
    | nil => cases hx
    | cons h1 _ ih =>
      rcases List.mem_cons.1 hx with rfl | hx
      · exact ⟨_, List.mem_cons_self, h1⟩
      · obtain ⟨d, hd, h⟩ := ih hx
        exact ⟨d, List.mem_cons_of_mem _ hd, h⟩

theorem real_foldl (xs : List ℝ) : ∀ s : ℝ, xs.foldl FloatOps.add s = s + xs.sum := by
  induction xs with
  | nil => intro s; simp
  | cons x xs ih =>
    intro s
    rw [List.foldl_cons, ih, List.sum_cons, ← add_assoc]
    rfl

theorem real_sumOf (xs : List ℝ) : sumOf xs = xs.sum := by
  cases xs with
  | nil => rfl
  | cons x xs => rw [sumOf, real_foldl, List.sum_cons]

theorem Rounded.sumOf {K : Nat} {xs : List ℝ} {l : List Dbl} (h : List.Forall₂ (Rounded K) xs l) (hlen : K + xs.length ≤ 2 ^ 52) (hs : xs.sum ≤ 2 ^ (900 : ℤ)) :
    Rounded (K + xs.length) (sumOf xs) (sumOf l) := by
  cases h with
  | nil => exact rounded_zero _
  | @cons x d xs l hx hl =>
    rw [List.length_cons] at hlen ⊢
    rw [List.sum_cons] at hs
    exact (Rounded.foldl hl _ _ _ le_rfl (by omega) hx hs).weaken (by omega)

theorem Rounded.clusterSum {K : Nat} {cs : List Nat} {f : Nat → ℝ} {g : Nat → Dbl} (h : ∀ c ∈ cs, Rounded K (f c) (g c)) (hlen : K + cs.length ≤ 2 ^ 52) (hs : (cs.map f).sum ≤ 2 ^ (900 : ℤ)) :
    Rounded (K + cs.length) (clusterSum cs f) (clusterSum cs g) := by
  have h1 : List.Forall₂ (Rounded K) (cs.map f) (cs.map g) := by
    rw [List.forall₂_map_left_iff, List.forall₂_map_right_iff, List.forall₂_same]
    exact h
  have h2 := Rounded.foldl h1 _ _ _ le_rfl (by rw [List.length_map]; exact hlen) (rounded_zero K) (by rw [zero_add]; exact hs)
  rw [List.length_map, List.foldl_map, List.foldl_map] at h2
  exact h2

theorem real_clusterSum (cs : List Nat) (f : Nat → ℝ) : Scc.clusterSum cs f = (cs.map f).sum := by
  have := real_foldl (cs.map f) 0
  rw [zero_add, List.foldl_map] at this
  exact this

theorem dbl_lt_fin {x y : ℝ} : FloatOps.lt (Dbl.fin x) (.fin y) = true ↔ x < y := by
  rw [Dbl.lt_iff (by simp) (by simp)]
  exact EReal.coe_lt_coe_iff

theorem Rounded.min {K : Nat} {x y : ℝ} {a b : Dbl} (ha : Rounded K x a) (hb : Rounded K y b) :
    Rounded K (if FloatOps.lt y x then y else x) (if FloatOps.lt b a then b else a) := by
  have hlt : ∀ p q : ℝ, (FloatOps.lt p q = true) = (p < q) := fun p q => decide_eq_true_eq
  obtain ⟨hx0, hxm, v, rfl, h1, h2⟩ := ha
  obtain ⟨hy0, hym, v', rfl, h3, h4⟩ := hb
  simp only [hlt, dbl_lt_fin]
  by_cases h : y < x <;> by_cases h' : v' < v <;> simp only [h, h', if_true, if_false]
  · exact ⟨hy0, hym, v', rfl, h3, h4⟩
  · refine ⟨hy0, hym, v, rfl, ?_, (not_lt.1 h').trans h4⟩
    exact (mul_le_mul_of_nonneg_left h.le (down_pos K).le).trans h1
  · refine ⟨hx0, hxm, v', rfl, ?_, h'.le.trans h2⟩
    exact (mul_le_mul_of_nonneg_left (not_lt.1 h) (down_pos K).le).trans h3
  · exact ⟨hx0, hxm, v, rfl, h1, h2⟩

theorem Rounded.max {K : Nat} {x y : ℝ} {a b : Dbl} (ha : Rounded K x a) (hb : Rounded K y b) :
    Rounded K (if FloatOps.lt x y then y else x) (if FloatOps.lt a b then b else a) := by
  have hlt : ∀ p q : ℝ, (FloatOps.lt p q = true) = (p < q) := fun p q => decide_eq_true_eq
  obtain ⟨hx0, hxm, v, rfl, h1, h2⟩ := ha
  obtain ⟨hy0, hym, v', rfl, h3, h4⟩ := hb
  simp only [hlt, dbl_lt_fin]
  by_cases h : x < y <;> by_cases h' : v < v' <;> simp only [h, h', if_true, if_false]
  · exact ⟨hy0, hym, v', rfl, h3, h4⟩
  · refine ⟨hy0, hym, v, rfl, h3.trans (not_lt.1 h'), ?_⟩
    exact h2.trans (mul_le_mul_of_nonneg_left h.le (up_pos K).le)
  · refine ⟨hx0, hxm, v', rfl, h1.trans h'.le, ?_⟩
    exact h4.trans (mul_le_mul_of_nonneg_left (not_lt.1 h) (up_pos K).le)
  · exact ⟨hx0, hxm, v, rfl, h1, h2⟩

theorem Rounded.leastOf {K : Nat} {xs : List ℝ} {l : List Dbl} (h : List.Forall₂ (Rounded K) xs l) : Rounded K (leastOf xs) (leastOf l) := by
  cases h with
  | nil => exact rounded_zero _
  | @cons x d xs l hx hl =>
    unfold Scc.leastOf
    induction hl generalizing x d with
    | nil => exact hx
    | @cons y e xs l hy _ ih => exact ih (hx.min hy)

theorem Rounded.greatestOf {K : Nat} {xs : List ℝ} {l : List Dbl} (h : List.Forall₂ (Rounded K) xs l) : Rounded K (greatestOf xs) (greatestOf l) := by
  cases h with
  | nil => exact rounded_zero _
  | @cons x d xs l hx hl =>
    unfold Scc.greatestOf
    induction hl generalizing x d with
    | nil => exact hx
    | @cons y e xs l hy _ ih => exact ih (hx.max hy)

end Scc
