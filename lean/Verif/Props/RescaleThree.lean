/-
C88: a power of two is needed. With a unit that differs by the factor three, rounding errors differ, and with them comparisons of distances.
-/
import Verif.Props.Rescale

namespace Scc

/-- Three points in three dimensions: the origin, (c, c, 2^27 c) and (0, 0, 2^27 c). -/
noncomputable def cornerData (c : ℤ) : DataSet Dbl :=
  ⟨dataSetVersion, 3, 3, some (Buf.ofList (([0, 0, 0, c, c, 2 ^ 27 * c, 0, 0, 2 ^ 27 * c] : List ℤ).map fun z : ℤ => Dbl.fin z))⟩

theorem corner_get (c : ℤ) {i : Nat} (hi : i < 9) : (cornerData c).buf.get i = some (.fin (([0, 0, 0, c, c, 2 ^ 27 * c, 0, 0, 2 ^ 27 * c] : List ℤ).getD i 0 : ℤ)) := by
  have e : (cornerData c).buf = Buf.ofList (([0, 0, 0, c, c, 2 ^ 27 * c, 0, 0, 2 ^ 27 * c] : List ℤ).map fun z : ℤ => Dbl.fin z) := rfl
  rw [e]
  interval_cases i <;> rfl

theorem corner_finite (c : ℤ) : (cornerData c).FiniteCoords := fun i hi => ⟨_, corner_get c hi⟩

theorem corner_coord (c : ℤ) {i t : Nat} (hi : i < 3) (ht : t < 3) : (cornerData c).realCoord i t = (([0, 0, 0, c, c, 2 ^ 27 * c, 0, 0, 2 ^ 27 * c] : List ℤ).getD (i * 3 + t) 0 : ℤ) := by
  have h : (cornerData c).coord i t = .fin (([0, 0, 0, c, c, 2 ^ 27 * c, 0, 0, 2 ^ 27 * c] : List ℤ).getD (i * 3 + t) 0 : ℤ) := by
    unfold DataSet.coord
    have e : i * (cornerData c).dims + t = i * 3 + t := rfl
    rw [e, corner_get c (by omega)]
    rfl
  unfold DataSet.realCoord
  rw [h]

/-- Integers with at most 53 bits and zeros behind are not rounded. -/
theorem round_rep (m : ℤ) (e : ℤ) (hm : |m| ≤ 2 ^ 53) (he : 0 ≤ e) (he' : e ≤ 900) : Dbl.round (m * 2 ^ e) = .fin (m * 2 ^ e) := by
  have h := nearest53_rep m e hm (by omega)
  rw [round_eq_fin, h]
  rw [h, abs_mul, abs_of_pos (zpow2_pos e)]
  refine le_trans ?_ zpow_le_maxDouble
  calc |(m : ℝ)| * 2 ^ e ≤ 2 ^ 53 * 2 ^ e := mul_le_mul_of_nonneg_right (by exact_mod_cast hm) (zpow2_pos e).le
    _ = 2 ^ (53 + e) := by rw [← zpow_natCast, ← zpow_add₀ (by norm_num)]; norm_num
    _ ≤ 2 ^ (1023 : ℤ) := zpow_le_zpow_right₀ (by norm_num) (by omega)

/-- The square of a small difference. -/
theorem square_rep (m : ℤ) (e : ℤ) (hm0 : 0 ≤ m) (hm : m ≤ 3) (he : 0 ≤ e) (he' : e ≤ 27) : FloatOps.mul (Dbl.round (m * 2 ^ e)) (Dbl.round (m * 2 ^ e)) = .fin ((m * m : ℤ) * 2 ^ (e + e)) := by
  rw [round_rep m e (by rw [abs_of_nonneg hm0]; omega) he (by omega)]
  show Dbl.round (m * 2 ^ e * (m * 2 ^ e)) = _
  rw [show (m : ℝ) * 2 ^ e * (m * 2 ^ e) = (m * m : ℤ) * 2 ^ (e + e) by rw [zpow_add₀ (by norm_num)]; push_cast; ring]
  have h9 : m * m ≤ 3 * 3 := mul_le_mul hm hm hm0 (by norm_num)
  exact round_rep (m * m) (e + e) (by rw [abs_of_nonneg (mul_nonneg hm0 hm0)]; omega) (by omega) (by omega)

theorem corner_term {c : ℤ} {i t : Nat} (hi : i < 3) (ht : t < 3) {m e : ℤ} (h : (cornerData c).realCoord i t = m * 2 ^ e) (hm0 : 0 ≤ m) (hm : m ≤ 3) (he : 0 ≤ e) (he' : e ≤ 27) :
    (cornerData c).sqTerm 0 i t = .fin ((m * m : ℤ) * 2 ^ (e + e)) := by
  have h0 : (cornerData c).realCoord 0 t = 0 := by
    rw [corner_coord c (by norm_num) ht]
    interval_cases t <;> simp
  unfold DataSet.sqTerm
  rw [(corner_finite c).coord_eq (show 0 < 3 by norm_num) ht, (corner_finite c).coord_eq hi ht, Dbl.sub_fin, h0, zero_sub, Dbl.round_neg, Dbl.mul_neg_neg, h]
  exact square_rep m e hm0 hm he he'

/-- The squared distance from the origin, added from the first dimension to the last. -/
theorem corner_sqd {c : ℤ} {i : Nat} {x y z : Dbl} (h0 : (cornerData c).sqTerm 0 i 0 = x) (h1 : (cornerData c).sqTerm 0 i 1 = y) (h2 : (cornerData c).sqTerm 0 i 2 = z) :
    (cornerData c).sqd 0 i = FloatOps.add (FloatOps.add (FloatOps.add (.fin 0) x) y) z := by
  subst h0 h1 h2
  rfl

theorem corner_far {c : ℤ} (hc : 0 ≤ c) (hc3 : c ≤ 3) : (cornerData c).sqd 0 2 = .fin ((c * c : ℤ) * 2 ^ (54 : ℤ)) := by
  have h0 := corner_term (c := c) (i := 2) (t := 0) (by norm_num) (by norm_num) (m := 0) (e := 0) (by rw [corner_coord c (by norm_num) (by norm_num)]; simp) (by norm_num) (by norm_num) (by norm_num) (by norm_num)
  have h1 := corner_term (c := c) (i := 2) (t := 1) (by norm_num) (by norm_num) (m := 0) (e := 0) (by rw [corner_coord c (by norm_num) (by norm_num)]; simp) (by norm_num) (by norm_num) (by norm_num) (by norm_num)
  have h2 := corner_term (c := c) (i := 2) (t := 2) (by norm_num) (by norm_num) (m := c) (e := 27) (by rw [corner_coord c (by norm_num) (by norm_num)]; simp; ring) hc hc3 (by norm_num) (by norm_num)
  rw [corner_sqd h0 h1 h2]
  have hz : Dbl.fin (((0 * 0 : ℤ) : ℝ) * 2 ^ (0 + 0 : ℤ)) = .fin 0 := by norm_num
  have ha : FloatOps.add (Dbl.fin 0) (.fin 0) = .fin 0 := by
    show Dbl.round (0 + 0) = _
    rw [add_zero, Dbl.round_zero]
  rw [hz, ha, ha]
  show Dbl.round (0 + _) = _
  rw [zero_add, show (27 : ℤ) + 27 = 54 by norm_num]
  have h9 : c * c ≤ 3 * 3 := mul_le_mul hc3 hc3 hc (by norm_num)
  exact round_rep (c * c) 54 (by rw [abs_of_nonneg (mul_nonneg hc hc)]; omega) (by norm_num) (by norm_num)

theorem corner_near {c : ℤ} (hc : 0 ≤ c) (hc3 : c ≤ 3) : (cornerData c).sqd 0 1 = Dbl.round (2 * (c * c) + (c * c) * 2 ^ (54 : ℤ)) := by
  have h0 := corner_term (c := c) (i := 1) (t := 0) (by norm_num) (by norm_num) (m := c) (e := 0) (by rw [corner_coord c (by norm_num) (by norm_num)]; simp) hc hc3 (by norm_num) (by norm_num)
  have h1 := corner_term (c := c) (i := 1) (t := 1) (by norm_num) (by norm_num) (m := c) (e := 0) (by rw [corner_coord c (by norm_num) (by norm_num)]; simp) hc hc3 (by norm_num) (by norm_num)
  have h2 := corner_term (c := c) (i := 1) (t := 2) (by norm_num) (by norm_num) (m := c) (e := 27) (by rw [corner_coord c (by norm_num) (by norm_num)]; simp; ring) hc hc3 (by norm_num) (by norm_num)
  rw [corner_sqd h0 h1 h2]
  have h9 : c * c ≤ 3 * 3 := mul_le_mul hc3 hc3 hc (by norm_num)
  have h0' := mul_nonneg hc hc
  have e1 : FloatOps.add (Dbl.fin 0) (.fin (((c * c : ℤ) : ℝ) * 2 ^ (0 + 0 : ℤ))) = .fin ((c * c : ℤ) : ℝ) := by
    show Dbl.round (0 + _) = _
    rw [zero_add, add_zero, zpow_zero, mul_one]
    exact round_int (by rw [abs_of_nonneg h0']; omega)
  have e2 : FloatOps.add (Dbl.fin ((c * c : ℤ) : ℝ)) (.fin (((c * c : ℤ) : ℝ) * 2 ^ (0 + 0 : ℤ))) = .fin ((c * c + c * c : ℤ) : ℝ) := by
    show Dbl.round (_ + _) = _
    rw [add_zero, zpow_zero, mul_one, ← Int.cast_add]
    exact round_int (by rw [abs_of_nonneg (add_nonneg h0' h0')]; omega)
  rw [e1, e2]
  show Dbl.round (_ + _) = _
  congr 1
  push_cast
  norm_num
  ring

/-- The result of rounding a number with the leading bit `l + 52`. -/
theorem nearest53_of {x : ℝ} {m l : ℤ} (h1 : 2 ^ (l + 52) ≤ x) (h2 : x < 2 ^ (l + 53)) (hl : -1074 ≤ l) (h : |x / 2 ^ l - m| < 1 / 2 ∨ |x / 2 ^ l - m| = 1 / 2 ∧ m % 2 = 0) : nearest53 x = m * 2 ^ l := by
  have hx : 0 < x := lt_of_lt_of_le (zpow2_pos _) h1
  have hlow : (2 : ℝ) ^ (-1022 : ℤ) ≤ |x| := by
    rw [abs_of_pos hx]
    exact (zpow_le_zpow_right₀ (by norm_num) (by omega)).trans h1
  have e1 := (Int.zpow_le_iff_le_log (b := 2) (by norm_num) (x := l + 52) hx).1 (by exact_mod_cast h1)
  have e2 := (Int.lt_zpow_iff_log_lt (b := 2) (by norm_num) (x := l + 53) hx).1 (by exact_mod_cast h2)
  have e3 : lastBit x = l := by
    rw [lastBit_normal hlow, abs_of_pos hx]
    omega
  unfold nearest53
  rw [e3, roundEven_unique h]

theorem round_one : Dbl.round (2 * (((1 : ℤ) : ℝ) * (1 : ℤ)) + (((1 : ℤ) : ℝ) * (1 : ℤ)) * 2 ^ (54 : ℤ)) = .fin (2 ^ (54 : ℤ)) := by
  have h : nearest53 (2 * (((1 : ℤ) : ℝ) * (1 : ℤ)) + (((1 : ℤ) : ℝ) * (1 : ℤ)) * 2 ^ (54 : ℤ)) = 2 ^ (54 : ℤ) := by
    rw [nearest53_of (m := 2 ^ 52) (l := 2) (by norm_num) (by norm_num) (by norm_num) (Or.inr (by norm_num))]
    norm_num
  rw [round_eq_fin, h]
  rw [h, abs_of_pos (zpow2_pos _)]
  exact (zpow_le_zpow_right₀ (by norm_num) (by norm_num)).trans zpow_le_maxDouble

theorem round_three : Dbl.round (2 * (((3 : ℤ) : ℝ) * (3 : ℤ)) + (((3 : ℤ) : ℝ) * (3 : ℤ)) * 2 ^ (54 : ℤ)) = .fin (9 * 2 ^ (54 : ℤ) + 32) := by
  have h : nearest53 (2 * (((3 : ℤ) : ℝ) * (3 : ℤ)) + (((3 : ℤ) : ℝ) * (3 : ℤ)) * 2 ^ (54 : ℤ)) = 9 * 2 ^ (54 : ℤ) + 32 := by
    rw [nearest53_of (m := 9 * 2 ^ 49 + 1) (l := 5) (by norm_num) (by norm_num) (by norm_num) (Or.inl (by norm_num [abs_lt]))]
    norm_num
  rw [round_eq_fin, h]
  rw [h, abs_of_pos (by norm_num)]
  refine le_trans ?_ (zpow_le_maxDouble)
  calc (9 : ℝ) * 2 ^ (54 : ℤ) + 32 ≤ 2 ^ (60 : ℤ) := by norm_num
    _ ≤ 2 ^ (1023 : ℤ) := zpow_le_zpow_right₀ (by norm_num) (by norm_num)

theorem corner_moderate {c : ℤ} (hc : 0 < c) (hc3 : c ≤ 3) : (cornerData c).Moderate where
  finite := corner_finite c
  dims := by show 3 ≤ 2 ^ 20; norm_num
  spread i j t hi hj ht := by
    rw [corner_coord c hi ht, corner_coord c hj ht]
    have hd : ∀ i < 3, ∀ j < 3, ∀ t < 3, |([0, 0, 0, c, c, 2 ^ 27 * c, 0, 0, 2 ^ 27 * c] : List ℤ).getD (i * 3 + t) 0 - ([0, 0, 0, c, c, 2 ^ 27 * c, 0, 0, 2 ^ 27 * c] : List ℤ).getD (j * 3 + t) 0| ≤ 2 ^ 30 := by
      intro i hi j hj t ht
      interval_cases c <;> interval_cases i <;> interval_cases j <;> interval_cases t <;> decide
    set x := ([0, 0, 0, c, c, 2 ^ 27 * c, 0, 0, 2 ^ 27 * c] : List ℤ).getD (i * 3 + t) 0
    set y := ([0, 0, 0, c, c, 2 ^ 27 * c, 0, 0, 2 ^ 27 * c] : List ℤ).getD (j * 3 + t) 0
    by_cases he : x = y
    · exact Or.inl (by rw [he])
    · right
      have e1 : (1 : ℝ) ≤ |(x : ℝ) - y| := by exact_mod_cast Int.one_le_abs (sub_ne_zero.2 he)
      have e2 : |(x : ℝ) - y| ≤ 2 ^ 30 := by exact_mod_cast hd i hi j hj t ht
      constructor
      · exact le_trans (zpow_le_one_of_nonpos₀ (by norm_num) (by norm_num)) e1
      · refine e2.trans ?_
        calc (2 : ℝ) ^ 30 = 2 ^ (30 : ℤ) := by norm_num
          _ ≤ 2 ^ (500 : ℤ) := zpow_le_zpow_right₀ (by norm_num) (by norm_num)

/-- A power of two is needed in C88. All coordinates are multiplied by three, exactly. In the first unit, points 1 and 2 have the same computed distance from point 0; in the second, point 2 is closer
(as it is in exact arithmetic). So point 1, which comes first, is the nearest neighbour of point 0 in the first unit only. -/
theorem C88_fails_three : (cornerData 1).Moderate ∧ (cornerData 3).Moderate ∧ (∀ i t, i < 3 → t < 3 → (cornerData 3).realCoord i t = 3 * (cornerData 1).realCoord i t) ∧
    (cornerData 1).sqd 0 1 = (cornerData 1).sqd 0 2 ∧ FloatOps.lt ((cornerData 3).sqd 0 2) ((cornerData 3).sqd 0 1) = true := by
  refine ⟨corner_moderate (by norm_num) (by norm_num), corner_moderate (by norm_num) (by norm_num), fun i t hi ht => ?_, ?_, ?_⟩
  · rw [corner_coord 3 hi ht, corner_coord 1 hi ht]
    have hd : ∀ i < 3, ∀ t < 3, ([0, 0, 0, 3, 3, 2 ^ 27 * 3, 0, 0, 2 ^ 27 * 3] : List ℤ).getD (i * 3 + t) 0 = 3 * ([0, 0, 0, 1, 1, 2 ^ 27 * 1, 0, 0, 2 ^ 27 * 1] : List ℤ).getD (i * 3 + t) 0 := by decide
    exact_mod_cast hd i hi t ht
  · rw [corner_near (by norm_num) (by norm_num), corner_far (by norm_num) (by norm_num), round_one]
    norm_num
  · rw [corner_near (by norm_num) (by norm_num), corner_far (by norm_num) (by norm_num), round_three, dbl_lt_fin]
    norm_num

end Scc
