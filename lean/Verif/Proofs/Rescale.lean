/-
Helper lemmas for data sets in `double` that differ by a power of two.
-/
import Verif.Spec.Rescale
import Verif.Proofs.DoubleRadius
import Verif.Proofs.StatsDouble

namespace Scc

theorem log_scale (e : ℤ) {x : ℝ} (hx : 0 < x) : Int.log 2 (2 ^ e * x) = e + Int.log 2 x := by
  have hp := mul_pos (zpow2_pos e) hx
  have h2 : ((2 : ℕ) : ℝ) = 2 := by norm_num
  apply le_antisymm
  · have h := (Int.lt_zpow_iff_log_lt (b := 2) (by norm_num) (x := e + (Int.log 2 x + 1)) hp).1 (by
      rw [h2, zpow_add₀ (by norm_num)]
      have := Int.lt_zpow_succ_log_self (b := 2) (by norm_num) x
      rw [h2] at this
      exact mul_lt_mul_of_pos_left this (zpow2_pos e))
    omega
  · refine (Int.zpow_le_iff_le_log (b := 2) (by norm_num) hp).1 ?_
    rw [h2, zpow_add₀ (by norm_num)]
    have := Int.zpow_log_le_self (b := 2) (by norm_num) hx
    rw [h2] at this
    exact mul_le_mul_of_nonneg_left this (zpow2_pos e).le

theorem lastBit_normal {x : ℝ} (h : 2 ^ (-1022 : ℤ) ≤ |x|) : lastBit x = Int.log 2 |x| - 52 := by
  have hx : 0 < |x| := lt_of_lt_of_le (zpow2_pos _) h
  have := (Int.zpow_le_iff_le_log (b := 2) (by norm_num) (x := -1022) hx).1 (by exact_mod_cast h)
  unfold lastBit
  omega

/-- Rounding commutes with multiplication by a power of two, except near underflow. -/
theorem nearest53_scale (e : ℤ) {x : ℝ} (h : x = 0 ∨ 2 ^ (-1022 : ℤ) ≤ |x|) (h' : x = 0 ∨ 2 ^ (-1022 : ℤ) ≤ |2 ^ e * x|) : nearest53 (2 ^ e * x) = 2 ^ e * nearest53 x := by
  rcases h with rfl | h
  · rw [mul_zero, nearest53_zero, mul_zero]
  have hx : 0 < |x| := lt_of_lt_of_le (zpow2_pos _) h
  have hx0 : x ≠ 0 := abs_pos.1 hx
  replace h' := h'.resolve_left hx0
  have hl : lastBit (2 ^ e * x) = e + lastBit x := by
    rw [lastBit_normal h', lastBit_normal h, abs_mul, abs_of_pos (zpow2_pos e), log_scale e hx]
    ring
  unfold nearest53
  rw [hl, zpow_add₀ (by norm_num), mul_div_mul_left _ _ (zpow2_pos e).ne']
  ring

theorem Mid.scale {k : ℤ} {e : ℤ} {x : ℝ} (hk : k ≤ 1022) (h : Mid k x) (h' : Mid k (2 ^ e * x)) : nearest53 (2 ^ e * x) = 2 ^ e * nearest53 x := by
  refine nearest53_scale e (h.normal hk) ?_
  rcases h'.normal hk with h | h
  · exact Or.inl ((mul_eq_zero.1 h).resolve_left (zpow2_pos e).ne')
  · exact Or.inr h

theorem round_inv {x z : ℝ} (h : Dbl.round x = .fin z) : z = nearest53 x := by
  unfold Dbl.round at h
  split at h
  · exact (Dbl.fin.inj h).symm
  · cases h

section
variable {e : ℤ} {ds ds' : DataSet Dbl} (h : Rescaled e ds ds')
include h

theorem Rescaled.diff {i j t : Nat} (hi : i < ds.n) (hj : j < ds.n) (ht : t < ds.dims) : |ds'.realCoord i t - ds'.realCoord j t| = 2 ^ e * |ds.realCoord i t - ds.realCoord j t| := by
  obtain ⟨s, b, hs, hb⟩ := h.coord
  rw [hb i t hi ht, hb j t hj ht, show s t * (2 ^ e * ds.realCoord i t) + b t - (s t * (2 ^ e * ds.realCoord j t) + b t) = s t * (2 ^ e * (ds.realCoord i t - ds.realCoord j t)) by ring,
    abs_mul, hs, one_mul, abs_mul, abs_of_pos (zpow2_pos e)]

omit h in
theorem DataSet.Moderate.mid {ds : DataSet Dbl} (h : ds.Moderate) {i j t : Nat} (hi : i < ds.n) (hj : j < ds.n) (ht : t < ds.dims) : Mid 500 (ds.realCoord i t - ds.realCoord j t) := by
  rcases h.spread i j t hi hj ht with h | h
  · exact Or.inl (sub_eq_zero.2 h)
  · exact Or.inr h

omit h in
theorem Mid.abs {k : ℤ} {x : ℝ} (h : Mid k x) : Mid k |x| := by
  rcases h with h | h
  · exact Or.inl (by rw [h, abs_zero])
  · exact Or.inr (by rw [abs_abs]; exact h)

omit h in
theorem sqTerm_eq {ds : DataSet Dbl} (h : ds.FiniteCoords) {i j t : Nat} (hi : i < ds.n) (hj : j < ds.n) (ht : t < ds.dims) (hm : Mid 500 (ds.realCoord i t - ds.realCoord j t)) :
    ds.sqTerm i j t = .fin (nearest53 (nearest53 |ds.realCoord i t - ds.realCoord j t| * nearest53 |ds.realCoord i t - ds.realCoord j t|)) := by
  rw [nearest53_abs, abs_mul_abs_self]
  have hr := hm.round (by norm_num) (by norm_num)
  have : ds.sqTerm i j t = Dbl.round (nearest53 (ds.realCoord i t - ds.realCoord j t) * nearest53 (ds.realCoord i t - ds.realCoord j t)) := by
    unfold DataSet.sqTerm
    rw [h.coord_eq hi ht, h.coord_eq hj ht, Dbl.sub_fin, hm.fin (by norm_num) (by norm_num)]
    rfl
  rw [this]
  exact (hr.mul hr).fin (by norm_num) (by norm_num)

theorem Rescaled.sqTerm {i j t : Nat} (hi : i < ds.n) (hj : j < ds.n) (ht : t < ds.dims) : ∃ y, ds.sqTerm i j t = .fin y ∧ ds'.sqTerm i j t = .fin (2 ^ e * 2 ^ e * y) := by
  have hm := h.moderate.mid hi hj ht
  have hm' := h.moderate'.mid (h.num ▸ hi) (h.num ▸ hj) (h.dims ▸ ht)
  refine ⟨_, sqTerm_eq h.moderate.finite hi hj ht hm, ?_⟩
  rw [sqTerm_eq h.moderate'.finite (h.num ▸ hi) (h.num ▸ hj) (h.dims ▸ ht) hm']
  have hd := h.diff hi hj ht
  have ha := hm.abs
  have ha' := hm'.abs
  rw [hd] at ha' ⊢
  have hn := Mid.scale (by norm_num) ha ha'
  have hr := ha.round (by norm_num) (by norm_num)
  have hr' := ha'.round (by norm_num) (by norm_num)
  rw [hn] at hr' ⊢
  set u := nearest53 |ds.realCoord i t - ds.realCoord j t|
  have e1 : 2 ^ e * u * (2 ^ e * u) = (2 : ℝ) ^ (e + e) * (u * u) := by rw [zpow_add₀ (by norm_num)]; ring
  have h2 := hr'.mul hr'
  rw [e1] at h2 ⊢
  rw [Mid.scale (by norm_num) (hr.mul hr) h2, zpow_add₀ (by norm_num)]

theorem Rescaled.sqSum {i j : Nat} (hi : i < ds.n) (hj : j < ds.n) (k : Nat) (hk : k ≤ ds.dims) :
    ∃ x, (List.range k).foldl (fun acc t => FloatOps.add acc (ds.sqTerm i j t)) (FloatOps.zero : Dbl) = .fin x ∧
      (List.range k).foldl (fun acc t => FloatOps.add acc (ds'.sqTerm i j t)) (FloatOps.zero : Dbl) = .fin (2 ^ e * 2 ^ e * x) := by
  have hi' : i < ds'.n := h.num ▸ hi
  have hj' : j < ds'.n := h.num ▸ hj
  have hm : ∀ t, t < ds.dims → Mid 500 (ds.realCoord i t - ds.realCoord j t) := fun t ht => h.moderate.mid hi hj ht
  have hm' : ∀ t, t < ds'.dims → Mid 500 (ds'.realCoord i t - ds'.realCoord j t) := fun t ht => h.moderate'.mid hi' hj' ht
  induction k with
  | zero => exact ⟨0, rfl, by rw [mul_zero]; rfl⟩
  | succ k ih =>
    obtain ⟨x, hx, hx'⟩ := ih (by omega)
    have hkd : k < ds.dims := by omega
    obtain ⟨y, hy, hy'⟩ := h.sqTerm hi hj hkd
    obtain ⟨x1, h1, h10, -, h1m, -⟩ := sqSum_error h.moderate.finite hi hj h.moderate.dims hm k (by omega)
    obtain ⟨x2, h2, h20, -, h2m, -⟩ := sqSum_error h.moderate'.finite hi' hj' h.moderate'.dims hm' k (h.dims ▸ by omega)
    obtain ⟨y1, g1, g10, g1m, -⟩ := sqTerm_error h.moderate.finite hi hj hkd (hm k hkd)
    obtain ⟨y2, g2, g20, g2m, -⟩ := sqTerm_error h.moderate'.finite hi' hj' (h.dims ▸ hkd) (hm' k (h.dims ▸ hkd))
    obtain ⟨z, hz, -⟩ := sqSum_error h.moderate.finite hi hj h.moderate.dims hm (k + 1) hk
    obtain ⟨z', hz', -⟩ := sqSum_error h.moderate'.finite hi' hj' h.moderate'.dims hm' (k + 1) (h.dims ▸ hk)
    obtain rfl : x1 = x := Dbl.fin.inj (h1.symm.trans hx)
    obtain rfl : x2 = 2 ^ e * 2 ^ e * x1 := Dbl.fin.inj (h2.symm.trans hx')
    obtain rfl : y1 = y := Dbl.fin.inj (g1.symm.trans hy)
    obtain rfl : y2 = 2 ^ e * 2 ^ e * y1 := Dbl.fin.inj (g2.symm.trans hy')
    refine ⟨z, hz, ?_⟩
    rw [hz']
    rw [List.range_succ, List.foldl_append, hx, List.foldl_cons, List.foldl_nil, hy] at hz
    rw [List.range_succ, List.foldl_append, hx', List.foldl_cons, List.foldl_nil, hy'] at hz'
    rw [round_inv hz, round_inv hz', ← mul_add, ← zpow_add₀ (by norm_num)]
    congr 1
    have norm : ∀ {a b : ℝ}, 0 ≤ a → 0 ≤ b → (a = 0 ∨ 2 ^ (-1000 : ℤ) ≤ a) → Mid 1000 b → (a + b = 0 ∨ 2 ^ (-1022 : ℤ) ≤ |a + b|) := by
      intro a b ha hb hma hmb
      have hle : (2 : ℝ) ^ (-1022 : ℤ) ≤ 2 ^ (-1000 : ℤ) := zpow_le_zpow_right₀ (by norm_num) (by norm_num)
      rw [abs_of_nonneg (add_nonneg ha hb)]
      rcases hma with h | h
      · rw [h, zero_add]
        rcases hmb with h | h
        · exact Or.inl h
        · exact Or.inr (hle.trans (by have := h.1; rwa [abs_of_nonneg hb] at this))
      · exact Or.inr (hle.trans (by linarith))
    refine nearest53_scale _ (norm h10 g10 h1m g1m) ?_
    have := norm h20 g20 h2m g2m
    rw [← mul_add, ← zpow_add₀ (by norm_num)] at this
    exact this.imp (fun h => (mul_eq_zero.1 h).resolve_left (zpow2_pos _).ne') id

/-- Squared distances are multiplied by the square of the power of two. -/
theorem Rescaled.sqd {i j : Nat} (hi : i < ds.n) (hj : j < ds.n) : ∃ x, ds.sqd i j = .fin x ∧ ds'.sqd i j = .fin (2 ^ e * 2 ^ e * x) ∧ 0 ≤ x := by
  obtain ⟨x, h1, h2⟩ := h.sqSum hi hj ds.dims (le_refl _)
  obtain ⟨y, h3, h4, -⟩ := sqd_error h.moderate hi hj
  have h1' : ds.sqd i j = .fin x := h1
  obtain rfl : y = x := Dbl.fin.inj (h3.symm.trans h1')
  refine ⟨y, h1', ?_, h4⟩
  unfold DataSet.sqd
  rw [← h.dims]
  exact h2

omit h in
theorem sqrt_mid {x : ℝ} (h0 : 0 ≤ x) (hd : x ≤ 2 ^ 20 * 2 ^ (1000 : ℤ)) (hm : x = 0 ∨ 2 ^ (-1000 : ℤ) ≤ x) : Mid 600 (Real.sqrt x) := by
  rcases hm with rfl | hm
  · exact Or.inl Real.sqrt_zero
  right
  rw [abs_of_nonneg (Real.sqrt_nonneg _)]
  constructor
  · refine Real.le_sqrt_of_sq_le (le_trans ?_ hm)
    rw [← zpow_natCast, ← zpow_mul]
    exact zpow_le_zpow_right₀ (by norm_num) (by norm_num)
  · refine Real.sqrt_le_iff.2 ⟨(zpow2_pos _).le, hd.trans ?_⟩
    rw [← zpow_natCast, ← zpow_natCast, ← zpow_mul, ← zpow_add₀ (by norm_num)]
    exact zpow_le_zpow_right₀ (by norm_num) (by norm_num)

omit h in
theorem sqd_mid {ds : DataSet Dbl} (h : ds.Moderate) {i j : Nat} (hi : i < ds.n) (hj : j < ds.n) {x : ℝ} (hx : ds.sqd i j = .fin x) : Mid 600 (Real.sqrt x) := by
  obtain ⟨y, h1, h2, h3, h4, -⟩ := sqd_error h hi hj
  obtain rfl : y = x := Dbl.fin.inj (h1.symm.trans hx)
  refine sqrt_mid h2 (h3.trans (mul_le_mul_of_nonneg_right ?_ (zpow2_pos _).le)) h4
  exact_mod_cast h.dims

omit h in
theorem dbl_sqrt_fin {x : ℝ} (h0 : 0 ≤ x) (hm : Mid 600 (Real.sqrt x)) : FloatOps.sqrt (Dbl.fin x) = .fin (nearest53 (Real.sqrt x)) := by
  show (if x < 0 then Dbl.nan else Dbl.round (Real.sqrt x)) = _
  rw [if_neg (not_lt.2 h0)]
  exact hm.fin (by norm_num) (by norm_num)

/-- Distances are multiplied by the power of two. -/
theorem Rescaled.dist {i j : Nat} (hi : i < ds.n) (hj : j < ds.n) : ∃ x, ds.dist i j = .fin x ∧ ds'.dist i j = .fin (2 ^ e * x) ∧ 0 ≤ x := by
  obtain ⟨x, h1, h2, h0⟩ := h.sqd hi hj
  have hm := sqd_mid h.moderate hi hj h1
  have hm' := sqd_mid h.moderate' (h.num ▸ hi) (h.num ▸ hj) h2
  have hs : Real.sqrt (2 ^ e * 2 ^ e * x) = 2 ^ e * Real.sqrt x := by
    rw [Real.sqrt_mul (mul_self_nonneg _), Real.sqrt_mul_self (zpow2_pos e).le]
  have h0' : 0 ≤ (2 : ℝ) ^ e * 2 ^ e * x := mul_nonneg (mul_self_nonneg _) h0
  refine ⟨_, (congrArg FloatOps.sqrt h1).trans (dbl_sqrt_fin h0 hm), ?_, nearest53_nonneg (Real.sqrt_nonneg _)⟩
  refine (congrArg FloatOps.sqrt h2).trans ((dbl_sqrt_fin h0' hm').trans ?_)
  rw [hs] at hm' ⊢
  rw [Mid.scale (by norm_num) hm hm']

omit h in
theorem dbl_cmp {x y x' y' : ℝ} (h : x < y ↔ x' < y') (h2 : x ≤ y ↔ x' ≤ y') : SameCmp (Dbl.fin x) (.fin y) (Dbl.fin x') (.fin y') := by
  constructor
  · rw [Bool.eq_iff_iff, dbl_lt_fin, dbl_lt_fin]; exact h
  · rw [Bool.eq_iff_iff, Dbl.le_fin, Dbl.le_fin]; exact h2

theorem Rescaled.far : SameFar ds ds' where
  exact := h.exact
  exact' := h.exact'
  num := h.num
  near q x y hq hx hy := by
    have hcc := mul_pos (zpow2_pos e) (zpow2_pos e)
    obtain ⟨a, h1, h2, -⟩ := h.sqd hq hx
    obtain ⟨b, h3, h4, -⟩ := h.sqd hq hy
    rw [h1, h2, h3, h4]
    exact dbl_cmp (mul_lt_mul_iff_right₀ hcc).symm (mul_le_mul_iff_right₀ hcc).symm
  positive p q hp hq := ⟨Dbl.negOne_lt (h.moderate.finite.sqd_nonneg hp hq), Dbl.negOne_lt (h.moderate'.finite.sqd_nonneg (h.num ▸ hp) (h.num ▸ hq))⟩
  far p q r s hp hq hr hs := by
    obtain ⟨a, h1, h2, -⟩ := h.dist hp hq
    obtain ⟨b, h3, h4, -⟩ := h.dist hr hs
    rw [h1, h2, h3, h4]
    exact dbl_cmp (mul_lt_mul_iff_right₀ (zpow2_pos e)).symm (mul_le_mul_iff_right₀ (zpow2_pos e)).symm
  start p q hp hq := by
    rw [Dbl.negOne_lt (h.moderate.finite.dist_nonneg hp hq), Dbl.negOne_lt (h.moderate'.finite.dist_nonneg (h.num ▸ hp) (h.num ▸ hq))]

theorem Rescaled.radius_mid {x : ℝ} (hm : Mid 510 x) (hm' : Mid 510 (2 ^ e * x)) : SameRadius ds ds' (.fin x) (.fin (2 ^ e * x)) := by
  refine ⟨?_, fun q y hq hy => ?_⟩
  · show FloatOps.le (Dbl.fin x) (.fin 0) = FloatOps.le (Dbl.fin (2 ^ e * x)) (.fin 0)
    rw [Bool.eq_iff_iff, Dbl.le_fin, Dbl.le_fin]
    exact (mul_nonpos_iff_pos_imp_nonpos.trans ⟨fun h => h.1 (zpow2_pos e), fun h => ⟨fun _ => h, fun _ => (zpow2_pos e).le⟩⟩).symm
  · obtain ⟨a, g1, g2, -⟩ := h.sqd hq hy
    show FloatOps.lt (FloatOps.mul (Dbl.fin x) (.fin x)) _ = FloatOps.lt (FloatOps.mul (Dbl.fin (2 ^ e * x)) (.fin (2 ^ e * x))) _
    rw [(radius_sq hm).1, (radius_sq hm').1, g1, g2, Bool.eq_iff_iff, dbl_lt_fin, dbl_lt_fin]
    have e1 : 2 ^ e * x * (2 ^ e * x) = (2 : ℝ) ^ (e + e) * (x * x) := by rw [zpow_add₀ (by norm_num)]; ring
    have hmm := hm'.mul hm'
    rw [e1] at hmm ⊢
    rw [Mid.scale (by norm_num) (hm.mul hm) hmm, zpow_add₀ (by norm_num)]
    exact (mul_lt_mul_iff_right₀ (mul_pos (zpow2_pos e) (zpow2_pos e))).symm

theorem Rescaled.radius {r : Dbl} (hr : ModerateRadius e r) : SameRadius ds ds' r (r.times e) := by
  obtain ⟨x, rfl, h1, h2, h3, h4⟩ := hr
  exact h.radius_mid ((show Mid 500 x from Or.inr ⟨h1, h2⟩).mono (by norm_num))
    ((show Mid 500 (2 ^ e * x) from Or.inr (by rw [abs_mul, abs_of_pos (zpow2_pos e)]; exact ⟨h3, h4⟩)).mono (by norm_num))

theorem Rescaled.options {o : Options Dbl} (ho : ModerateRadii e o) : SameOptions ds ds' o (o.rescaled e) :=
  ⟨rfl, rfl, rfl, rfl, rfl, rfl, rfl, rfl, rfl, rfl, rfl, rfl, rfl, rfl, rfl, fun hs => h.radius (ho.seed hs), fun hs => h.radius (ho.primary hs), fun hs => h.radius (ho.secondary hs)⟩

end

end Scc
