/-
C90: for integer coordinates only the true distances matter, exactly. `Congruent` is in Spec/Congruent.lean, `DataSet.SmallIntegers` in Spec/Double.lean.
-/
import Verif.Spec.Congruent
import Verif.Proofs.Constant
import Verif.Props.Constant
import Verif.Props.RescaleThree

namespace Scc

theorem Congruent.spi {ds ds' : DataSet Dbl} (h : Congruent ds ds') (hz : ds.SmallIntegers) (hz' : ds'.SmallIntegers) : builtinSpi (some ds') = builtinSpi (some ds) :=
  spi_same h.exact h.exact' h.num fun i j hi hj => by rw [sqd_integers hz hi hj, sqd_integers hz' (h.num ▸ hi) (h.num ▸ hj), h.dist i j hi hj]

/-- C90 for `scc_sc_clustering`. The coordinates of two congruent data sets are integers. Whatever the options, the two calls have the same outcome. -/
theorem C90_sc_clustering {ds ds' : DataSet Dbl} (h : Congruent ds ds') (hz : ds.SmallIntegers) (hz' : ds'.SmallIntegers) (cfg : Cfg) (o : Options Dbl) (p : Option ClObj) (w : World) :
    scClustering cfg (builtinSpi (some ds')) o p w = scClustering cfg (builtinSpi (some ds)) o p w := by rw [h.spi hz hz']

/-- C90 for `scc_hierarchical_clustering`. -/
theorem C90_hierarchical {ds ds' : DataSet Dbl} (h : Congruent ds ds') (hz : ds.SmallIntegers) (hz' : ds'.SmallIntegers) (cfg : Cfg) (hi : HiEnv Dbl) (S : Nat) (batch : Bool) (p : Option ClObj) (w : World) :
    hierarchical cfg hi (builtinSpi (some ds')) S batch p w = hierarchical cfg hi (builtinSpi (some ds)) S batch p w := by rw [h.spi hz hz']

/-- C90 for `scc_get_clustering_stats`. -/
theorem C90_stats {ds ds' : DataSet Dbl} (h : Congruent ds ds') (hz : ds.SmallIntegers) (hz' : ds'.SmallIntegers) (cfg : Cfg) (p : Option ClObj) (out : Bool) (w : World) :
    getStats cfg (builtinSpi (some ds')) p out w = getStats cfg (builtinSpi (some ds)) p out w := by rw [h.spi hz hz']

/-! ### Six points on a line, and on a sloping line in a plane -/

/-- Points on a line with slope 3/4, five units apart for each unit in `l`. -/
noncomputable def slope (l : List ℤ) : DataSet Dbl := ⟨dataSetVersion, l.length, 2, some (Buf.ofList (l.flatMap fun z : ℤ => [Dbl.fin (4 * z : ℤ), .fin (3 * z : ℤ)]))⟩

theorem slope_coord {i : Nat} (hi : i < 6) : (slope [0, 1, 3, 7, 8, 20]).coord i 0 = .fin (4 * [0, 1, 3, 7, 8, 20].getD i 0 : ℤ) ∧ (slope [0, 1, 3, 7, 8, 20]).coord i 1 = .fin (3 * [0, 1, 3, 7, 8, 20].getD i 0 : ℤ) := by
  interval_cases i <;> exact ⟨rfl, rfl⟩

theorem slope_exact : (slope [0, 1, 3, 7, 8, 20]).Exact := by
  refine ⟨rfl, fun i hi => ?_, rfl⟩
  have hi : i < 12 := hi
  interval_cases i <;> exact ⟨_, rfl⟩

theorem slope_real {i : Nat} (hi : i < 6) : (slope [0, 1, 3, 7, 8, 20]).realCoord i 0 = (4 * [0, 1, 3, 7, 8, 20].getD i 0 : ℤ) ∧ (slope [0, 1, 3, 7, 8, 20]).realCoord i 1 = (3 * [0, 1, 3, 7, 8, 20].getD i 0 : ℤ) := by
  unfold DataSet.realCoord
  rw [(slope_coord hi).1, (slope_coord hi).2]
  exact ⟨rfl, rfl⟩

theorem slope_integers : (slope [0, 1, 3, 7, 8, 20]).SmallIntegers := by
  refine ⟨fun i hi => ?_, fun i t hi ht => ?_, fun i j hi hj => ?_⟩
  · have hi : i < 12 := hi
    interval_cases i <;> exact ⟨_, rfl⟩
  · have ht : t < 2 := ht
    interval_cases t
    · exact ⟨_, (slope_real hi).1⟩
    · exact ⟨_, (slope_real hi).2⟩
  · rw [eudist_sq, show (slope [0, 1, 3, 7, 8, 20]).dims = 2 from rfl, Finset.sum_range_succ, Finset.sum_range_one, (slope_real hi).1, (slope_real hi).2, (slope_real hj).1, (slope_real hj).2]
    have := (by decide : ∀ i, i < 6 → ∀ j, j < 6 → (4 * ([0, 1, 3, 7, 8, 20] : List ℤ).getD i 0 - 4 * ([0, 1, 3, 7, 8, 20] : List ℤ).getD j 0) ^ 2 +
      (3 * ([0, 1, 3, 7, 8, 20] : List ℤ).getD i 0 - 3 * ([0, 1, 3, 7, 8, 20] : List ℤ).getD j 0) ^ 2 ≤ 2 ^ 53) i hi j hj
    exact_mod_cast this

theorem intLine_integers {l : List ℤ} (h : ∀ i < l.length, ∀ j < l.length, |l.getD i 0 - l.getD j 0| ^ 2 ≤ 2 ^ 53) : (intLine l).SmallIntegers := by
  refine ⟨intLine_finite _, fun i t hi ht => ?_, fun i j hi hj => ?_⟩
  · obtain rfl : t = 0 := by have : t < 1 := ht; omega
    exact ⟨_, intLine_coord _ hi⟩
  · rw [intLine_eudist _ hi hj]
    exact_mod_cast h i hi j hj

theorem slope_congruent : Congruent (intLine [0, 5, 15, 35, 40, 100]) (slope [0, 1, 3, 7, 8, 20]) where
  exact := intLine_exact (by decide)
  exact' := slope_exact
  num := rfl
  dist i j hi hj := by
    refine (sq_eq_sq₀ (eudist_nonneg _ _ _) (eudist_nonneg _ _ _)).1 ?_
    have hi : i < 6 := hi
    have hj : j < 6 := hj
    rw [eudist_sq, show (slope [0, 1, 3, 7, 8, 20]).dims = 2 from rfl, Finset.sum_range_succ, Finset.sum_range_one, (slope_real hi).1, (slope_real hi).2, (slope_real hj).1, (slope_real hj).2,
      intLine_eudist _ hi hj]
    have := (by decide : ∀ i, i < 6 → ∀ j, j < 6 → (4 * ([0, 1, 3, 7, 8, 20] : List ℤ).getD i 0 - 4 * ([0, 1, 3, 7, 8, 20] : List ℤ).getD j 0) ^ 2 +
      (3 * ([0, 1, 3, 7, 8, 20] : List ℤ).getD i 0 - 3 * ([0, 1, 3, 7, 8, 20] : List ℤ).getD j 0) ^ 2 =
        |([0, 5, 15, 35, 40, 100] : List ℤ).getD i 0 - ([0, 5, 15, 35, 40, 100] : List ℤ).getD j 0| ^ 2) i hi j hj
    exact_mod_cast this

example (o : Options Dbl) (w : World) : scClustering sampleCfg (builtinSpi (some (slope [0, 1, 3, 7, 8, 20]))) o (some lineObj) w =
    scClustering sampleCfg (builtinSpi (some (intLine [0, 5, 15, 35, 40, 100]))) o (some lineObj) w :=
  C90_sc_clustering slope_congruent (intLine_integers (by decide)) slope_integers sampleCfg o _ w

example (w : World) : hierarchical sampleCfg insertEnv (builtinSpi (some (slope [0, 1, 3, 7, 8, 20]))) 2 true (some lineObj) w =
    hierarchical sampleCfg insertEnv (builtinSpi (some (intLine [0, 5, 15, 35, 40, 100]))) 2 true (some lineObj) w :=
  C90_hierarchical slope_congruent (intLine_integers (by decide)) slope_integers sampleCfg insertEnv 2 true _ w

example (w : World) : getStats sampleCfg (builtinSpi (some (slope [0, 1, 3, 7, 8, 20]))) (some (hiObj 6 4 (some ⟨6, statLabels⟩))) true w =
    getStats sampleCfg (builtinSpi (some (intLine [0, 5, 15, 35, 40, 100]))) (some (hiObj 6 4 (some ⟨6, statLabels⟩))) true w :=
  C90_stats slope_congruent (intLine_integers (by decide)) slope_integers sampleCfg _ true w

/-! ### Larger integers -/

/-- Two points that differ by `2 ^ 27` in one dimension and by 1 in three others. -/
noncomputable def longFirst : DataSet Dbl := ⟨dataSetVersion, 2, 4, some (Buf.ofList [.fin (2 ^ 27), .fin 1, .fin 1, .fin 1, .fin 0, .fin 0, .fin 0, .fin 0])⟩

/-- The same with the dimensions in the opposite order. -/
noncomputable def longLast : DataSet Dbl := ⟨dataSetVersion, 2, 4, some (Buf.ofList [.fin 1, .fin 1, .fin 1, .fin (2 ^ 27), .fin 0, .fin 0, .fin 0, .fin 0])⟩

theorem add_square {t a s r : ℝ} (h1 : Dbl.round a = .fin a) (h2 : Dbl.round (a * a) = .fin s) (h3 : Dbl.round (t + s) = .fin r) :
    FloatOps.add (Dbl.fin t) (FloatOps.mul (FloatOps.sub (Dbl.fin a) (.fin 0)) (FloatOps.sub (Dbl.fin a) (.fin 0))) = .fin r := by
  rw [Dbl.sub_fin, sub_zero, h1]
  show FloatOps.add (Dbl.fin t) (Dbl.round (a * a)) = _
  rw [h2]
  exact h3

theorem round_natural (k : Nat) (h : k ≤ 2 ^ 53) : Dbl.round (k : ℝ) = .fin k := ofNat_exact h

theorem round_long {x : ℝ} {m : ℤ} (h1 : 2 ^ (54 : ℤ) ≤ x) (h2 : x < 2 ^ (55 : ℤ)) (h : |x / 2 ^ (2 : ℤ) - m| < 1 / 2) : Dbl.round x = .fin (m * 2 ^ (2 : ℤ)) := by
  have h3 : nearest53 x = m * 2 ^ (2 : ℤ) := nearest53_of h1 h2 (by norm_num) (Or.inl h)
  have h4 : |nearest53 x| ≤ maxDouble := by
    have h5 : nearest53 x ≤ 2 ^ (55 : ℤ) := nearest53_le_zpow 55 (by norm_num) h2.le
    have h6 : 0 ≤ nearest53 x := nearest53_nonneg ((zpow2_pos 54).le.trans h1)
    rw [abs_of_nonneg h6]
    exact (h5.trans (zpow_le_zpow_right₀ (by norm_num) (by norm_num))).trans zpow_le_maxDouble
  rw [round_eq_fin h4, h3]

theorem round_27 : Dbl.round (2 ^ 27) = .fin (2 ^ 27) := by
  have := round_natural (2 ^ 27) (by norm_num)
  rwa [Nat.cast_pow, Nat.cast_ofNat] at this

theorem round_54 : Dbl.round (2 ^ 27 * 2 ^ 27) = .fin (2 ^ 54) := by
  rw [round_long (m := 2 ^ 52) (by norm_num) (by norm_num) (by norm_num)]
  norm_num

theorem longFirst_sqd : longFirst.sqd 0 1 = .fin (2 ^ 54) := by
  have one : Dbl.round 1 = .fin 1 := by simpa using round_natural 1 (by norm_num)
  have one' : Dbl.round (1 * 1) = .fin 1 := by rw [mul_one]; exact one
  have e0 := add_square (t := 0) (r := 2 ^ 54) round_27 round_54 (by rw [zero_add, round_long (m := 2 ^ 52) (by norm_num) (by norm_num) (by norm_num)]; norm_num)
  have e1 := add_square (t := 2 ^ 54) (r := 2 ^ 54) one one' (by rw [round_long (m := 2 ^ 52) (by norm_num) (by norm_num) (by norm_num)]; norm_num)
  show FloatOps.add (FloatOps.add (FloatOps.add (FloatOps.add (Dbl.fin 0) (FloatOps.mul (FloatOps.sub (Dbl.fin (2 ^ 27)) (.fin 0)) (FloatOps.sub (Dbl.fin (2 ^ 27)) (.fin 0))))
    (FloatOps.mul (FloatOps.sub (Dbl.fin 1) (.fin 0)) (FloatOps.sub (Dbl.fin 1) (.fin 0)))) (FloatOps.mul (FloatOps.sub (Dbl.fin 1) (.fin 0)) (FloatOps.sub (Dbl.fin 1) (.fin 0))))
    (FloatOps.mul (FloatOps.sub (Dbl.fin 1) (.fin 0)) (FloatOps.sub (Dbl.fin 1) (.fin 0))) = _
  rw [e0, e1, e1, e1]

theorem longLast_sqd : longLast.sqd 0 1 = .fin (2 ^ 54 + 4) := by
  have one : Dbl.round 1 = .fin 1 := by simpa using round_natural 1 (by norm_num)
  have one' : Dbl.round (1 * 1) = .fin 1 := by rw [mul_one]; exact one
  have e0 := add_square (t := 0) (r := 1) one one' (by rw [zero_add]; exact one)
  have e1 := add_square (t := 1) (r := 2) one one' (by have := round_natural 2 (by norm_num); norm_num at this ⊢; exact this)
  have e2 := add_square (t := 2) (r := 3) one one' (by have := round_natural 3 (by norm_num); norm_num at this ⊢; exact this)
  have e3 := add_square (t := 3) (r := 2 ^ 54 + 4) round_27 round_54 (by rw [round_long (m := 2 ^ 52 + 1) (by norm_num) (by norm_num) (by norm_num [abs_lt])]; norm_num)
  show FloatOps.add (FloatOps.add (FloatOps.add (FloatOps.add (Dbl.fin 0) (FloatOps.mul (FloatOps.sub (Dbl.fin 1) (.fin 0)) (FloatOps.sub (Dbl.fin 1) (.fin 0))))
    (FloatOps.mul (FloatOps.sub (Dbl.fin 1) (.fin 0)) (FloatOps.sub (Dbl.fin 1) (.fin 0)))) (FloatOps.mul (FloatOps.sub (Dbl.fin 1) (.fin 0)) (FloatOps.sub (Dbl.fin 1) (.fin 0))))
    (FloatOps.mul (FloatOps.sub (Dbl.fin (2 ^ 27)) (.fin 0)) (FloatOps.sub (Dbl.fin (2 ^ 27)) (.fin 0))) = _
  rw [e0, e1, e2, e3]

/-- A bound on distances is needed: squared distances in `DataSet.SmallIntegers` are at most 2^53, and here the largest is 2^54 + 3. The data sets are congruent, with the dimensions in the opposite order, but with the radius `2 ^ 27` the two points are
within the radius of each other in the first and not in the second. -/
theorem C90_fails_order : Congruent longFirst longLast ∧ ∃ d d', sqDist longFirst 0 1 = some d ∧ sqDist longLast 0 1 = some d' ∧
    FloatOps.lt (FloatOps.mul (Dbl.fin (2 ^ 27)) (.fin (2 ^ 27))) d = false ∧ FloatOps.lt (FloatOps.mul (Dbl.fin (2 ^ 27)) (.fin (2 ^ 27))) d' = true := by
  suffices h : Congruent longFirst longLast ∧ FloatOps.lt (FloatOps.mul (Dbl.fin (2 ^ 27)) (.fin (2 ^ 27))) (longFirst.sqd 0 1) = false ∧
      FloatOps.lt (FloatOps.mul (Dbl.fin (2 ^ 27)) (.fin (2 ^ 27))) (longLast.sqd 0 1) = true from
    ⟨h.1, _, _, sqDist_eq h.1.exact.complete (show 0 < 2 by omega) (show 1 < 2 by omega), sqDist_eq h.1.exact'.complete (show 0 < 2 by omega) (show 1 < 2 by omega), h.2⟩
  have hr : FloatOps.mul (Dbl.fin (2 ^ 27)) (.fin (2 ^ 27)) = .fin (2 ^ 54) := round_54
  refine ⟨⟨⟨rfl, fun i hi => ?_, rfl⟩, ⟨rfl, fun i hi => ?_, rfl⟩, rfl, fun i j hi hj => ?_⟩, ?_, ?_⟩
  · have hi : i < 8 := hi
    interval_cases i <;> exact ⟨_, rfl⟩
  · have hi : i < 8 := hi
    interval_cases i <;> exact ⟨_, rfl⟩
  · refine (sq_eq_sq₀ (eudist_nonneg _ _ _) (eudist_nonneg _ _ _)).1 ?_
    have hi : i < 2 := hi
    have hj : j < 2 := hj
    have hrev : ∀ i < 2, longLast.realCoord i 0 = longFirst.realCoord i 3 ∧ longLast.realCoord i 1 = longFirst.realCoord i 2 ∧ longLast.realCoord i 2 = longFirst.realCoord i 1 ∧ longLast.realCoord i 3 = longFirst.realCoord i 0 := by
      intro i hi
      interval_cases i <;> exact ⟨rfl, rfl, rfl, rfl⟩
    obtain ⟨a0, a1, a2, a3⟩ := hrev i hi
    obtain ⟨b0, b1, b2, b3⟩ := hrev j hj
    rw [eudist_sq, eudist_sq, show longLast.dims = 4 from rfl, show longFirst.dims = 4 from rfl]
    simp only [Finset.sum_range_succ, Finset.sum_range_zero]
    rw [a0, a1, a2, a3, b0, b1, b2, b3]
    ring
  · rw [hr, longFirst_sqd, Bool.eq_false_iff, ne_eq, dbl_lt_fin]
    exact lt_irrefl _
  · rw [hr, longLast_sqd, dbl_lt_fin]
    norm_num

end Scc
