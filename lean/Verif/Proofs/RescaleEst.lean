/-
Helper lemmas for estimated radii of data sets in `double` that differ by a power of two.
-/
import Verif.Proofs.RescaleStats
import Verif.Proofs.CompareEst
import Verif.Proofs.PressCore
import Verif.Proofs.DoubleExact

namespace Scc

/-! ### Loops with relations that depend on the number of iterations -/

theorem sim_foldBM_count {α β σ γ δ : Type} {R : Nat → α → β → Prop} {Q : γ → δ → Prop} {f : α → σ → M (Ctl α γ)} {g : β → σ → M (Ctl β δ)} {N : Nat} (l : List σ)
    (hf : ∀ j a b i, j < N → R j a b → Sim (CtlPair (R (j + 1)) Q) (f a i) (g b i)) {j : Nat} (hj : j + l.length ≤ N) {a : α} {b : β} (h : R j a b) :
    Sim (CtlPair (R (j + l.length)) Q) (foldBM f a l) (foldBM g b l) := by
  induction l generalizing a b j with
  | nil => exact sim_pure (.next h)
  | cons i l ih =>
    rw [List.length_cons] at hj ⊢
    unfold foldBM
    refine sim_bind (hf j a b i (by omega) h) fun c d h => ?_
    cases h with
    | next h =>
      have := ih (j := j + 1) (by omega) h
      rwa [show j + 1 + l.length = j + (l.length + 1) by omega] at this
    | stop h => exact sim_pure (.stop h)

theorem rel_forLt_count {α β : Type} {R : Nat → α → β → Prop} {hi : Nat} {a : α} {b : β} {f : Nat → α → Option α} {g : Nat → β → Option β} (h : R 0 a b)
    (hf : ∀ i a b, R i a b → Option.Rel (R (i + 1)) (f i a) (g i b)) : Option.Rel (R hi) (forLt 0 hi a f) (forLt 0 hi b g) := by
  unfold forLt
  have key : ∀ (k j : Nat) (a : α) (b : β), R j a b → Option.Rel (R (j + k)) ((List.range' j k).foldlM (fun s i => f i s) a) ((List.range' j k).foldlM (fun s i => g i s) b) := by
    intro k
    induction k with
    | zero => exact fun j a b h => .some h
    | succ k ih =>
      intro j a b h
      rw [List.range'_succ, List.foldlM_cons, List.foldlM_cons]
      refine rel_bind (hf j a b h) fun c d h => ?_
      have := ih (j + 1) c d h
      rwa [show j + 1 + k = j + (k + 1) by omega] at this
  have := key (hi - 0) 0 a b h
  rwa [Nat.sub_zero, Nat.zero_add] at this

theorem rel_and {α β : Type} {R : α → β → Prop} {P : α → Prop} {x : Option α} {y : Option β} (h : Option.Rel R x y) (hP : ∀ a, x = some a → P a) : Option.Rel (fun a b => R a b ∧ P a) x y := by
  cases h with
  | none => exact .none
  | some h => exact .some ⟨h, hP _ rfl⟩

theorem distRowsK_len {F : Type} [FloatOps F] {ds : DataSet F} {lenQ lenC : Nat} {queries cols : Option Arr} {out out' : Buf F} (h : distRowsK ds lenQ queries lenC cols out = some out') : out'.len = out.len := by
  unfold distRowsK at h
  obtain ⟨⟨a, w⟩, h1, h2⟩ := Option.bind_eq_some_iff.1 h
  cases h2
  refine forLt_inv (I := fun _ s => s.1.len = out.len) (Nat.zero_le _) rfl (fun q s s' _ _ hs h => ?_) h1
  refine forLt_inv (I := fun _ s => s.1.len = out.len) (Nat.zero_le _) hs (fun c s s' _ _ hs h => ?_) h
  obtain ⟨s, v⟩ := s
  obtain ⟨i, -, h⟩ := Option.bind_eq_some_iff.1 h
  obtain ⟨j, -, h⟩ := Option.bind_eq_some_iff.1 h
  obtain ⟨d, -, h⟩ := Option.bind_eq_some_iff.1 h
  obtain ⟨o, h3, h⟩ := Option.bind_eq_some_iff.1 h
  cases h
  unfold Buf.set at h3
  split at h3
  · cases h3; exact hs
  · cases h3

theorem distRows_sim_len {F G : Type} [FloatOps F] [FloatOps G] {ds : DataSet F} {ds' : DataSet G} {T : F → G → Prop} (h : SameNear ds ds') (hT : ∀ p q, p < ds.n → q < ds.n → T (ds.dist p q) (ds'.dist p q))
    (lenQ : Nat) (queries : Option Arr) (lenC : Nat) (cols : Option Arr) {out : Buf F} {out' : Buf G} (ho : BufAlike T out out') :
    Sim (Option.Rel fun a b => BufAlike T a b ∧ a.len = out.len) ((builtinSpi (some ds)).distRows lenQ queries lenC cols out) ((builtinSpi (some ds')).distRows lenQ queries lenC cols out') := by
  show Sim _ (useK _ (distRowsK ds _ _ _ _ _) >>= _) (useK _ (distRowsK ds' _ _ _ _ _) >>= _)
  exact sim_bind (sim_useK _ (rel_and (distRowsK_rel h hT _ _ _ _ ho) fun _ h => distRowsK_len h)) fun a b hab => sim_pure (.some hab)

/-! ### Means -/

/-- A count with at most 53 bits is converted exactly. -/
theorem ofNat_exact {k : Nat} (h : k ≤ 2 ^ 53) : (FloatOps.ofNat k : Dbl) = .fin k := by
  show Dbl.round (k : ℝ) = _
  have := round_int (z := (k : ℤ)) (by rw [abs_of_nonneg (by positivity)]; exact_mod_cast h)
  rwa [Int.cast_natCast] at this

theorem Band.mean {l U : ℤ} {m : Nat} {a : ℝ} (h : Band l U m a) (h0 : 0 < m) (hm : m ≤ 2 ^ 53) : Band (l + 53) U 1 (a / m) := by
  have hd : (0 : ℝ) < m := by exact_mod_cast h0
  refine ⟨div_nonneg h.1 hd.le, h.2.1.imp (fun h => by rw [h, zero_div]) fun h => ?_, ?_⟩
  · rw [le_div_iff₀ hd]
    have hm' : (m : ℝ) ≤ 2 ^ (53 : ℤ) := by exact_mod_cast hm
    calc (2 : ℝ) ^ (-(l + 53)) * m ≤ 2 ^ (-(l + 53)) * 2 ^ (53 : ℤ) := mul_le_mul_of_nonneg_left hm' (zpow2_pos _).le
      _ = 2 ^ (-l) := by rw [← zpow_add₀ (by norm_num)]; congr 1; ring
      _ ≤ a := h
  · rw [div_le_iff₀ hd, Nat.cast_one, one_mul, mul_comm]
    exact h.2.2

theorem InUnits.mean {e l U : ℤ} {m : Nat} {x y : Dbl} (h : InUnits e l U m x y) (h0 : 0 < m) (hm : m ≤ 2 ^ 53) (hl : l + 53 ≤ 1022) (hU : -1074 ≤ U) (hU' : U ≤ 970) :
    InUnits e (l + 53) U 1 (FloatOps.div x (FloatOps.ofNat m)) (FloatOps.div y (FloatOps.ofNat m)) := by
  obtain ⟨a, rfl, rfl, h1, h2⟩ := h
  have hd0 : (m : ℝ) ≠ 0 := by exact_mod_cast h0.ne'
  have hdiv : ∀ a : ℝ, FloatOps.div (Dbl.fin a) (.fin m) = Dbl.round (a / m) := fun a => if_neg hd0
  rw [ofNat_exact hm, hdiv, hdiv, mul_div_assoc]
  have h3 := h2.mean h0 hm
  rw [mul_div_assoc] at h3
  exact InUnits.of_round (h1.mean h0 hm) h3 hl (by norm_num) hU hU'

/-- Both not a number, or in units. (The mean of no distances is not a number.) -/
def MeanAlike (e l U : ℤ) (m : Nat) (x y : Dbl) : Prop := x = .nan ∧ y = .nan ∨ InUnits e l U m x y

theorem add_nan_left (x : Dbl) : FloatOps.add Dbl.nan x = .nan := rfl

theorem add_nan_right (x : Dbl) : FloatOps.add x Dbl.nan = .nan := by cases x <;> rfl

theorem MeanAlike.add {e l U : ℤ} {m m' : Nat} {x y x' y' : Dbl} (h : MeanAlike e l U m x y) (h' : MeanAlike e l U m' x' y') (hl : l ≤ 1022) (hm : m + m' ≤ 2 ^ 53) (hU : -1074 ≤ U) (hU' : U ≤ 970) :
    MeanAlike e l U (m + m') (FloatOps.add x x') (FloatOps.add y y') := by
  rcases h with ⟨rfl, rfl⟩ | h
  · exact Or.inl ⟨add_nan_left _, add_nan_left _⟩
  · rcases h' with ⟨rfl, rfl⟩ | h'
    · exact Or.inl ⟨add_nan_right _, add_nan_right _⟩
    · exact Or.inr (h.add h' hl hm hU hU')

theorem MeanAlike.mean {e l U : ℤ} {m : Nat} {x y : Dbl} (h : MeanAlike e l U m x y) (hm : m ≤ 2 ^ 53) (hl : l + 53 ≤ 1022) (hU : -1074 ≤ U) (hU' : U ≤ 970) :
    MeanAlike e (l + 53) U 1 (FloatOps.div x (FloatOps.ofNat m)) (FloatOps.div y (FloatOps.ofNat m)) := by
  rcases h with ⟨rfl, rfl⟩ | h
  · exact Or.inl ⟨rfl, rfl⟩
  · rcases Nat.eq_zero_or_pos m with rfl | h0
    · obtain ⟨a, rfl, rfl, h1, h2⟩ := h
      have ha : a = 0 := le_antisymm (by have := h1.2.2; rwa [Nat.cast_zero, zero_mul] at this) h1.1
      subst ha
      rw [ofNat_exact hm, mul_zero]
      have : FloatOps.div (Dbl.fin 0) (.fin ((0 : Nat) : ℝ)) = .nan := by
        show (if ((0 : Nat) : ℝ) = 0 then (if (0 : ℝ) = 0 then Dbl.nan else _) else _) = _
        rw [if_pos Nat.cast_zero, if_pos rfl]
      exact Or.inl ⟨this, this⟩
    · exact Or.inr (h.mean h0 hm hl hU hU')

theorem sampleIndices_length (count : Nat) : (sampleIndices count).length ≤ 2000 := by
  unfold sampleIndices
  dsimp only
  rw [List.length_range']
  split
  · rename_i h
    have h1 : 1 ≤ count / 1000 := Nat.div_pos (by omega) (by norm_num)
    refine Nat.div_le_of_le_mul ?_
    have := Nat.div_add_mod count 1000
    have := Nat.mod_lt count (show 1000 > 0 by norm_num)
    omega
  · omega

section
variable {e : ℤ} {ds ds' : DataSet Dbl} (h : Rescaled e ds ds')
include h

omit h in
/-- Bounds for distances when there is room for means. -/
theorem dist_band {ds : DataSet Dbl} (h : ds.Moderate) (hr : ds.RoomForMeans) {i j : Nat} (hi : i < ds.n) (hj : j < ds.n) {x : ℝ} (hx : ds.dist i j = .fin x) : Band 401 411 1 x := by
  obtain ⟨y, h1, h2, -, -, h3, h4⟩ := sqd_error h hi hj
  have hm := sqd_mid h hi hj h1
  have hd := h.dims
  have hK : ds.dims + 3 ≤ 2 ^ 52 := by omega
  have hdown := half_le_down hK
  have hup := up_le_two hK
  rw [eudist_sq] at h3 h4
  set E := ∑ t ∈ Finset.range ds.dims, (ds.realCoord i t - ds.realCoord j t) ^ 2 with hE
  have hE0 : 0 ≤ E := Finset.sum_nonneg fun _ _ => sq_nonneg _
  have hEu : E ≤ 2 ^ (820 : ℤ) := by
    have : ∀ t ∈ Finset.range ds.dims, (ds.realCoord i t - ds.realCoord j t) ^ 2 ≤ 2 ^ (800 : ℤ) := by
      intro t ht
      rw [← sq_abs]
      have e1 : (2 : ℝ) ^ (800 : ℤ) = (2 ^ (400 : ℤ)) ^ 2 := by rw [← zpow_natCast, ← zpow_mul]; norm_num
      rw [e1]
      refine pow_le_pow_left₀ (abs_nonneg _) ?_ 2
      rcases hr i j t hi hj (Finset.mem_range.1 ht) with h | h
      · rw [h, sub_self, abs_zero]; exact (zpow2_pos _).le
      · exact h.2
    refine (Finset.sum_le_card_nsmul _ _ _ this).trans ?_
    rw [Finset.card_range, nsmul_eq_mul]
    calc (ds.dims : ℝ) * 2 ^ (800 : ℤ) ≤ 2 ^ 20 * 2 ^ (800 : ℤ) := mul_le_mul_of_nonneg_right (by exact_mod_cast hd) (zpow2_pos _).le
      _ = 2 ^ (820 : ℤ) := by rw [← zpow_natCast, ← zpow_add₀ (by norm_num)]; norm_num
  have hyu : y ≤ 2 ^ (822 : ℤ) := by
    calc y ≤ (1 + roundoff) ^ (ds.dims + 3) * E := h4
      _ ≤ 2 * 2 ^ (820 : ℤ) := mul_le_mul hup hEu hE0 (by norm_num)
      _ = 2 ^ (821 : ℤ) := by rw [← zpow_one_add₀ (by norm_num)]; norm_num
      _ ≤ 2 ^ (822 : ℤ) := zpow_le_zpow_right₀ (by norm_num) (by norm_num)
  have hyl : y = 0 ∨ 2 ^ (-802 : ℤ) ≤ y := by
    by_cases hz : ∀ t ∈ Finset.range ds.dims, ds.realCoord i t = ds.realCoord j t
    · left
      have : E = 0 := Finset.sum_eq_zero fun t ht => by rw [hz t ht, sub_self]; norm_num
      rw [this, mul_zero] at h4
      exact le_antisymm h4 h2
    · right
      push Not at hz
      obtain ⟨t, ht, hne⟩ := hz
      have hlow := ((hr i j t hi hj (Finset.mem_range.1 ht)).resolve_left hne).1
      have hEl : 2 ^ (-800 : ℤ) ≤ E := by
        have e1 : (2 : ℝ) ^ (-800 : ℤ) = (2 ^ (-400 : ℤ)) ^ 2 := by rw [← zpow_natCast, ← zpow_mul]; norm_num
        rw [e1]
        refine (pow_le_pow_left₀ (zpow2_pos _).le hlow 2).trans ?_
        rw [sq_abs]
        exact Finset.single_le_sum (f := fun t => (ds.realCoord i t - ds.realCoord j t) ^ 2) (fun _ _ => sq_nonneg _) ht
      calc (2 : ℝ) ^ (-802 : ℤ) ≤ 2 ^ (-801 : ℤ) := zpow_le_zpow_right₀ (by norm_num) (by norm_num)
        _ = 1 / 2 * 2 ^ (-800 : ℤ) := by
          have : (1 : ℝ) / 2 = 2 ^ (-1 : ℤ) := by norm_num
          rw [this, ← zpow_add₀ (by norm_num)]; norm_num
        _ ≤ (1 - roundoff) ^ (ds.dims + 3) * E := mul_le_mul hdown hEl (zpow2_pos _).le (down_pos _).le
        _ ≤ y := h3
  have hb : Band 401 411 1 (Real.sqrt y) := by
    refine ⟨Real.sqrt_nonneg _, hyl.imp (fun h => by rw [h, Real.sqrt_zero]) fun h => ?_, ?_⟩
    · refine Real.le_sqrt_of_sq_le (le_trans ?_ h)
      rw [← zpow_natCast, ← zpow_mul]
      exact zpow_le_zpow_right₀ (by norm_num) (by norm_num)
    · rw [Nat.cast_one, one_mul]
      refine Real.sqrt_le_iff.2 ⟨(zpow2_pos _).le, hyu.trans ?_⟩
      rw [← zpow_natCast, ← zpow_mul]
      exact zpow_le_zpow_right₀ (by norm_num) (by norm_num)
  have hxe : x = nearest53 (Real.sqrt y) := Dbl.fin.inj (hx.symm.trans ((congrArg FloatOps.sqrt h1).trans (dbl_sqrt_fin h2 hm)))
  rw [hxe]
  exact hb.round (by norm_num) (by norm_num) (by norm_num)

theorem Rescaled.unit (hr : ds.RoomForMeans) (hr' : ds'.RoomForMeans) {i j : Nat} (hi : i < ds.n) (hj : j < ds.n) : InUnits e 401 411 1 (ds.dist i j) (ds'.dist i j) := by
  obtain ⟨x, h1, h2, -⟩ := h.dist hi hj
  exact ⟨x, h1, h2, dist_band h.moderate hr hi hj h1, dist_band h.moderate' hr' (h.num ▸ hi) (h.num ▸ hj) h2⟩

theorem Rescaled.estimate {x y : Dbl} (hxy : MeanAlike e 507 411 1 x y) : EstAlike ds ds' x y := by
  rcases hxy with ⟨rfl, rfl⟩ | ⟨a, rfl, rfl, h1, h2⟩
  · exact ⟨rfl, fun h => by cases h⟩
  · have mid : ∀ {b : ℝ}, Band 507 411 1 b → Mid 510 b := by
      intro b hb
      rcases hb.2.1 with h | h
      · exact Or.inl h
      · right
        have := hb.2.2
        rw [Nat.cast_one, one_mul] at this
        rw [abs_of_nonneg hb.1]
        exact ⟨(zpow_le_zpow_right₀ (by norm_num) (by norm_num)).trans h, this.trans (zpow_le_zpow_right₀ (by norm_num) (by norm_num))⟩
    refine ⟨?_, fun _ => h.radius_mid (mid h1) (mid h2)⟩
    show FloatOps.lt (Dbl.fin 0) (.fin a) = FloatOps.lt (Dbl.fin 0) (.fin (2 ^ e * a))
    rw [Bool.eq_iff_iff, dbl_lt_fin, dbl_lt_fin]
    exact (mul_pos_iff_of_pos_left (zpow2_pos e)).symm

theorem Rescaled.estimates (hr : ds.RoomForMeans) (hr' : ds'.RoomForMeans) {S : Nat} (hS : S ≤ 2 ^ 53) : SameEstimates ds ds' S := by
  have hn := h.far.toSameNear
  have hT : ∀ p q, p < ds.n → q < ds.n → InUnits e 401 411 1 (ds.dist p q) (ds'.dist p q) := fun p q hp hq => h.unit hr hr' hp hq
  intro sr nng
  unfold estimateAvg
  refine sim_bind (sim_allocs (Buf.raw S : Buf Dbl) (Buf.raw S : Buf Dbl) true) fun b b' hb => ?_
  cases hb with
  | none => exact sim_fail _ _ _ _
  | some hb =>
    rename_i b b'
    obtain ⟨hid, hb1, hb2⟩ := hb
    dsimp only
    rw [← hid, hb1, hb2]
    have hlen := sampleIndices_length sr.count
    refine sim_bind (sim_foldBM_count (Q := Eq) (N := 2000)
      (R := fun j (x y : Nat × Dbl × Buf Dbl) => x.1 = y.1 ∧ x.1 = j ∧ MeanAlike e 454 411 j x.2.1 y.2.1 ∧ BufAlike (InUnits e 401 411 1) x.2.2 y.2.2 ∧ x.2.2.len = S)
      (j := 0) _ ?_ (by omega) ⟨rfl, rfl, Or.inr (InUnits.zero _), bufAlike_raw S, rfl⟩) fun r r' hr => ?_
    · rintro j ⟨k, s, d⟩ ⟨k', s', d'⟩ i hj ⟨h1, h2, h3, h4, h5⟩
      dsimp only at h1 h2 h3 h4 h5
      subst h1 h2
      unfold estimateStep
      refine sim_next fun ⟨seed, lo, num⟩ => sim_next fun _ => sim_bind (distRows_sim_len hn hT _ _ _ _ h4) fun o o' ho => ?_
      cases ho with
      | none => exact sim_next fun _ => sim_next fun e => sim_pure (.stop rfl)
      | some ho =>
        rename_i o o'
        obtain ⟨ho, hol⟩ := ho
        refine sim_bind (R := fun x y => (x.2 ≤ S ∧ InUnits e 401 411 x.2 x.1 y.1) ∧ x.2 = y.2) (sim_useK _ ?_) fun ⟨t, c⟩ ⟨t', c'⟩ ⟨⟨g0, g1⟩, g2⟩ => ?_
        · unfold sumDists
          refine rel_mono (rel_forLt_count (R := fun j (x y : Dbl × Nat) => (x.2 ≤ j ∧ x.2 ≤ S ∧ InUnits e 401 411 x.2 x.1 y.1) ∧ x.2 = y.2) ⟨⟨le_rfl, Nat.zero_le _, InUnits.zero _⟩, rfl⟩ fun j ⟨t, c⟩ ⟨t', c'⟩ ⟨⟨g0, g1, g2⟩, g3⟩ => ?_) fun _ _ h => ⟨h.1.2, h.2⟩
          dsimp only at g0 g1 g2 g3
          subst g3
          refine rel_next fun x => rel_ite Iff.rfl (fun _ => rel_bind (rel_and (ho.get j) (P := fun _ => j < S) ?_) fun y y' hy => ?_) fun _ => .some ⟨⟨by dsimp only; omega, g1, g2⟩, rfl⟩
          · intro a ha
            unfold Buf.get at ha
            split at ha
            · rename_i hlt
              rw [hol, h5] at hlt
              exact hlt
            · cases ha
          · have hjS := hy.2
            exact .some ⟨⟨by dsimp only; omega, by dsimp only; omega, g2.add hy.1 (by norm_num) (by omega) (by norm_num) (by norm_num)⟩, rfl⟩
        · dsimp only at g0 g1 g2
          subst g2
          refine sim_pure (.next ⟨rfl, rfl, ?_, ho, hol.trans h5⟩)
          exact h3.add (MeanAlike.mean (Or.inr g1) (by omega) (by norm_num) (by norm_num) (by norm_num)) (by norm_num) (by omega) (by norm_num) (by norm_num)
    · cases hr with
      | stop hr => subst hr; exact sim_pure (.error _)
      | next hr =>
        rename_i r r'
        obtain ⟨k, s, d⟩ := r
        obtain ⟨k', s', d'⟩ := r'
        obtain ⟨h1, h2, h3, -⟩ := hr
        dsimp only at h1 h2 h3
        subst h1
        rw [← h2] at h3
        exact sim_next fun _ => sim_pure (.ok (h.estimate (h3.mean (by omega) (by norm_num) (by norm_num) (by norm_num))))

end

end Scc
