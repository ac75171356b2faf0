/-
Helper lemmas for statistics of data sets in `double` that differ by a power of two: all numbers that are computed differ by the same power of two.
-/
import Verif.Proofs.Rescale

namespace Scc

/-- Zero, or not below `2 ^ -l`; not above `m * 2 ^ U`. -/
def Band (l U : ℤ) (m : Nat) (a : ℝ) : Prop := 0 ≤ a ∧ (a = 0 ∨ 2 ^ (-l) ≤ a) ∧ a ≤ m * 2 ^ U

/-- A number and the same number multiplied by `2 ^ e`. -/
def InUnits (e l U : ℤ) (m : Nat) (x y : Dbl) : Prop := ∃ a, x = .fin a ∧ y = .fin (2 ^ e * a) ∧ Band l U m a ∧ Band l U m (2 ^ e * a)

theorem Band.round {l U : ℤ} {m : Nat} {a : ℝ} (h : Band l U m a) (hl : l ≤ 1022) (hm : m ≤ 2 ^ 53) (hU : -1074 ≤ U) : Band l U m (nearest53 a) := by
  obtain ⟨h0, h1, h2⟩ := h
  refine ⟨nearest53_nonneg h0, h1.imp (fun h => by rw [h, nearest53_zero]) fun h => zpow_le_nearest53 _ (by omega) h, ?_⟩
  have := nearest53_le_rep (x := a) (m : ℤ) U (by rw [abs_of_nonneg (by positivity)]; exact_mod_cast hm) hU (by rw [Int.cast_natCast]; exact h2)
  rwa [Int.cast_natCast] at this

theorem Band.fin {l U : ℤ} {m : Nat} {a : ℝ} (h : Band l U m a) (hl : l ≤ 1022) (hm : m ≤ 2 ^ 53) (hU : -1074 ≤ U) (hU' : U ≤ 970) : Dbl.round a = .fin (nearest53 a) := by
  have h1 := h.round hl hm hU
  apply round_eq_fin
  rw [abs_of_nonneg h1.1]
  refine h1.2.2.trans (le_trans ?_ zpow_le_maxDouble)
  calc (m : ℝ) * 2 ^ U ≤ 2 ^ 53 * 2 ^ U := mul_le_mul_of_nonneg_right (by exact_mod_cast hm) (zpow2_pos _).le
    _ = 2 ^ (53 + U) := by rw [← zpow_natCast, ← zpow_add₀ (by norm_num)]; norm_num
    _ ≤ 2 ^ (1023 : ℤ) := zpow_le_zpow_right₀ (by norm_num) (by omega)

theorem Band.normal {l U : ℤ} {m : Nat} {a : ℝ} (h : Band l U m a) (hl : l ≤ 1022) : a = 0 ∨ 2 ^ (-1022 : ℤ) ≤ |a| := by
  rw [abs_of_nonneg h.1]
  exact h.2.1.imp id fun h => (zpow_le_zpow_right₀ (by norm_num) (by omega)).trans h

theorem InUnits.of_round {e l U : ℤ} {m : Nat} {a : ℝ} (h : Band l U m a) (h' : Band l U m (2 ^ e * a)) (hl : l ≤ 1022) (hm : m ≤ 2 ^ 53) (hU : -1074 ≤ U) (hU' : U ≤ 970) :
    InUnits e l U m (Dbl.round a) (Dbl.round (2 ^ e * a)) := by
  have hs : nearest53 (2 ^ e * a) = 2 ^ e * nearest53 a :=
    nearest53_scale e (h.normal hl) ((h'.normal hl).imp (fun h => (mul_eq_zero.1 h).resolve_left (zpow2_pos e).ne') id)
  have hr := h'.round hl hm hU
  rw [hs] at hr
  exact ⟨nearest53 a, h.fin hl hm hU hU', by rw [h'.fin hl hm hU hU', hs], h.round hl hm hU, hr⟩

theorem Band.add {l U : ℤ} {m m' : Nat} {a b : ℝ} (h : Band l U m a) (h' : Band l U m' b) : Band l U (m + m') (a + b) := by
  refine ⟨add_nonneg h.1 h'.1, ?_, by push_cast; rw [add_mul]; exact add_le_add h.2.2 h'.2.2⟩
  rcases h.2.1 with h1 | h1
  · rw [h1, zero_add]; exact h'.2.1
  · exact Or.inr (by linarith [h'.1])

theorem InUnits.add {e l U : ℤ} {m m' : Nat} {x y x' y' : Dbl} (h : InUnits e l U m x y) (h' : InUnits e l U m' x' y') (hl : l ≤ 1022) (hm : m + m' ≤ 2 ^ 53) (hU : -1074 ≤ U) (hU' : U ≤ 970) :
    InUnits e l U (m + m') (FloatOps.add x x') (FloatOps.add y y') := by
  obtain ⟨a, rfl, rfl, h1, h2⟩ := h
  obtain ⟨b, rfl, rfl, h3, h4⟩ := h'
  show InUnits e l U (m + m') (Dbl.round (a + b)) (Dbl.round (2 ^ e * a + 2 ^ e * b))
  have h5 := h2.add h4
  rw [← mul_add] at h5 ⊢
  exact InUnits.of_round (h1.add h3) h5 hl hm hU hU'

theorem InUnits.zero {e l U : ℤ} (m : Nat) : InUnits e l U m (FloatOps.zero : Dbl) FloatOps.zero := by
  have : Band l U m 0 := ⟨le_rfl, Or.inl rfl, mul_nonneg (Nat.cast_nonneg _) (zpow2_pos _).le⟩
  exact ⟨0, rfl, by rw [mul_zero]; rfl, this, by rwa [mul_zero]⟩

theorem Band.mono {l U l' U' : ℤ} {m m' : Nat} {a : ℝ} (h : Band l U m a) (hl : l ≤ l') (hU : (m : ℝ) * 2 ^ U ≤ m' * 2 ^ U') : Band l' U' m' a :=
  ⟨h.1, h.2.1.imp id fun h => (zpow_le_zpow_right₀ (by norm_num) (by omega)).trans h, h.2.2.trans hU⟩

theorem InUnits.mono {e l U l' U' : ℤ} {m m' : Nat} {x y : Dbl} (h : InUnits e l U m x y) (hl : l ≤ l') (hU : (m : ℝ) * 2 ^ U ≤ m' * 2 ^ U') : InUnits e l' U' m' x y :=
  let ⟨a, h1, h2, h3, h4⟩ := h
  ⟨a, h1, h2, h3.mono hl hU, h4.mono hl hU⟩

theorem InUnits.one {e l U : ℤ} {m : Nat} {x y : Dbl} (h : InUnits e l U m x y) (hm : m ≤ 2 ^ 53) : InUnits e l (U + 53) 1 x y := by
  refine h.mono le_rfl ?_
  rw [Nat.cast_one, one_mul, add_comm, zpow_add₀ (by norm_num)]
  refine mul_le_mul_of_nonneg_right ?_ (zpow2_pos _).le
  exact_mod_cast hm

theorem InUnits.foldl {e l U : ℤ} (hl : l ≤ 1022) (hU : -1074 ≤ U) (hU' : U ≤ 970) {xs ys : List Dbl} (h : List.Forall₂ (InUnits e l U 1) xs ys) :
    ∀ (m : Nat) (x y : Dbl), InUnits e l U m x y → m + xs.length ≤ 2 ^ 53 → InUnits e l U (m + xs.length) (xs.foldl FloatOps.add x) (ys.foldl FloatOps.add y) := by
  induction h with
  | nil => exact fun m x y h _ => h
  | @cons a b xs ys hab _ ih =>
    intro m x y hxy hm
    rw [List.length_cons] at hm ⊢
    have := ih (m + 1) _ _ (hxy.add hab hl (by omega) hU hU') (by omega)
    rwa [show m + 1 + xs.length = m + (xs.length + 1) by omega] at this

theorem InUnits.sumOf {e l U : ℤ} (hl : l ≤ 1022) (hU : -1074 ≤ U) (hU' : U ≤ 970) {xs ys : List Dbl} (h : List.Forall₂ (InUnits e l U 1) xs ys) (hlen : xs.length ≤ 2 ^ 53) :
    InUnits e l U xs.length (sumOf xs) (sumOf ys) := by
  cases h with
  | nil => exact InUnits.zero 0
  | cons hab h =>
    rw [List.length_cons, add_comm] at hlen ⊢
    exact InUnits.foldl hl hU hU' h 1 _ _ hab hlen

theorem InUnits.lt {e l U l' U' : ℤ} {m m' : Nat} {x y x' y' : Dbl} (h : InUnits e l U m x y) (h' : InUnits e l' U' m' x' y') : FloatOps.lt x x' = FloatOps.lt y y' := by
  obtain ⟨a, rfl, rfl, -⟩ := h
  obtain ⟨b, rfl, rfl, -⟩ := h'
  rw [Bool.eq_iff_iff, dbl_lt_fin, dbl_lt_fin]
  exact (mul_lt_mul_iff_right₀ (zpow2_pos e)).symm

theorem InUnits.leastOf {e l U : ℤ} {xs ys : List Dbl} (h : List.Forall₂ (InUnits e l U 1) xs ys) : InUnits e l U 1 (leastOf xs) (leastOf ys) := by
  cases h with
  | nil => exact InUnits.zero 1
  | @cons a b xs ys hab h =>
    show InUnits e l U 1 (List.foldl _ _ _) (List.foldl _ _ _)
    induction h generalizing a b with
    | nil => exact hab
    | cons hcd _ ih =>
      rw [List.foldl_cons, List.foldl_cons, hcd.lt hab]
      refine ih ?_
      split
      · exact hcd
      · exact hab

theorem InUnits.greatestOf {e l U : ℤ} {xs ys : List Dbl} (h : List.Forall₂ (InUnits e l U 1) xs ys) : InUnits e l U 1 (greatestOf xs) (greatestOf ys) := by
  cases h with
  | nil => exact InUnits.zero 1
  | @cons a b xs ys hab h =>
    show InUnits e l U 1 (List.foldl _ _ _) (List.foldl _ _ _)
    induction h generalizing a b with
    | nil => exact hab
    | cons hcd _ ih =>
      rw [List.foldl_cons, List.foldl_cons, hab.lt hcd]
      refine ih ?_
      split
      · exact hcd
      · exact hab

theorem InUnits.clusterSum {e l U : ℤ} (hl : l ≤ 1022) (hU : -1074 ≤ U) (hU' : U ≤ 970) {cs : List Nat} {f g : Nat → Dbl} (h : ∀ c ∈ cs, InUnits e l U 1 (f c) (g c)) (hlen : cs.length ≤ 2 ^ 53) :
    InUnits e l U cs.length (clusterSum cs f) (clusterSum cs g) := by
  unfold Scc.clusterSum
  rw [foldl_map_add, foldl_map_add]
  have hf : List.Forall₂ (InUnits e l U 1) (cs.map f) (cs.map g) := by
    clear hlen
    induction cs with
    | nil => exact .nil
    | cons c cs ih => exact .cons (h c List.mem_cons_self) (ih fun c hc => h c (List.mem_cons_of_mem _ hc))
  have := InUnits.foldl hl hU hU' hf 0 _ _ (InUnits.zero 0) (by rw [List.length_map]; omega)
  rwa [List.length_map, Nat.zero_add] at this

/-- A positive count, converted. -/
theorem ofNat_count {k : Nat} (h0 : 0 < k) (h : k ≤ 2 ^ 64) : ∃ d : ℝ, (FloatOps.ofNat k : Dbl) = .fin d ∧ 1 ≤ d ∧ d ≤ 2 ^ (64 : ℤ) := by
  have h1 : (1 : ℝ) ≤ k := by exact_mod_cast h0
  have h2 : (k : ℝ) ≤ 2 ^ (64 : ℤ) := by exact_mod_cast h
  have h3 : (1 : ℝ) ≤ nearest53 k := by
    have := zpow_le_nearest53 (x := (k : ℝ)) 0 (by norm_num) (by rwa [zpow_zero])
    rwa [zpow_zero] at this
  have h4 : nearest53 (k : ℝ) ≤ 2 ^ (64 : ℤ) := nearest53_le_zpow 64 (by norm_num) h2
  refine ⟨nearest53 k, ?_, h3, h4⟩
  show Dbl.round (k : ℝ) = _
  apply round_eq_fin
  rw [abs_of_nonneg (by linarith)]
  exact h4.trans ((zpow_le_zpow_right₀ (by norm_num) (by norm_num)).trans zpow_le_maxDouble)

theorem Band.div {l U : ℤ} {m : Nat} {a d : ℝ} (h : Band l U m a) (h1 : 1 ≤ d) (h2 : d ≤ 2 ^ (64 : ℤ)) : Band (l + 64) U m (a / d) := by
  have hd : 0 < d := by linarith
  refine ⟨div_nonneg h.1 hd.le, h.2.1.imp (fun h => by rw [h, zero_div]) fun h => ?_, (div_le_self h.1 h1).trans h.2.2⟩
  rw [le_div_iff₀ hd]
  calc (2 : ℝ) ^ (-(l + 64)) * d ≤ 2 ^ (-(l + 64)) * 2 ^ (64 : ℤ) := mul_le_mul_of_nonneg_left h2 (zpow2_pos _).le
    _ = 2 ^ (-l) := by rw [← zpow_add₀ (by norm_num)]; congr 1; ring
    _ ≤ a := h

theorem Band.times {l U : ℤ} {m : Nat} {a d : ℝ} (h : Band l U m a) (h1 : 1 ≤ d) (h2 : d ≤ 2 ^ (64 : ℤ)) : Band l (U + 64) m (d * a) := by
  have hd : 0 < d := by linarith
  refine ⟨mul_nonneg hd.le h.1, h.2.1.imp (fun h => by rw [h, mul_zero]) fun h' => h'.trans (le_mul_of_one_le_left h.1 h1), ?_⟩
  calc d * a ≤ 2 ^ (64 : ℤ) * (m * 2 ^ U) := mul_le_mul h2 h.2.2 h.1 (zpow2_pos _).le
    _ = m * 2 ^ (U + 64) := by rw [zpow_add₀ (by norm_num)]; ring

theorem InUnits.div {e l U : ℤ} {m k : Nat} {x y : Dbl} (h : InUnits e l U m x y) (h0 : 0 < k) (hk : k ≤ 2 ^ 64) (hl : l + 64 ≤ 1022) (hm : m ≤ 2 ^ 53) (hU : -1074 ≤ U) (hU' : U ≤ 970) :
    InUnits e (l + 64) U m (FloatOps.div x (FloatOps.ofNat k)) (FloatOps.div y (FloatOps.ofNat k)) := by
  obtain ⟨a, rfl, rfl, h1, h2⟩ := h
  obtain ⟨d, hd, hd1, hd2⟩ := ofNat_count h0 hk
  have hd0 : d ≠ 0 := by intro h; rw [h] at hd1; norm_num at hd1
  have hdiv : ∀ a : ℝ, FloatOps.div (Dbl.fin a) (.fin d) = Dbl.round (a / d) := fun a => if_neg hd0
  rw [hd, hdiv, hdiv, mul_div_assoc]
  have h3 := h2.div hd1 hd2
  rw [mul_div_assoc] at h3
  exact InUnits.of_round (h1.div hd1 hd2) h3 hl hm hU hU'

theorem InUnits.times {e l U : ℤ} {m k : Nat} {x y : Dbl} (h : InUnits e l U m x y) (h0 : 0 < k) (hk : k ≤ 2 ^ 64) (hl : l ≤ 1022) (hm : m ≤ 2 ^ 53) (hU : -1074 ≤ U) (hU' : U + 64 ≤ 970) :
    InUnits e l (U + 64) m (FloatOps.mul (FloatOps.ofNat k) x) (FloatOps.mul (FloatOps.ofNat k) y) := by
  obtain ⟨a, rfl, rfl, h1, h2⟩ := h
  obtain ⟨d, hd, hd1, hd2⟩ := ofNat_count h0 hk
  rw [hd]
  show InUnits e l (U + 64) m (Dbl.round (d * a)) (Dbl.round (d * (2 ^ e * a)))
  have h3 := h2.times hd1 hd2
  rw [mul_left_comm] at h3 ⊢
  exact InUnits.of_round (h1.times hd1 hd2) h3 hl hm (by omega) hU'

/-- The second number is the first multiplied by the power of two. -/
theorem InUnits.eq {e l U : ℤ} {m : Nat} {x y : Dbl} (h : InUnits e l U m x y) : y = x.times e := by
  obtain ⟨a, rfl, rfl, -⟩ := h
  rfl

section
variable {e : ℤ} {ds ds' : DataSet Dbl} (h : Rescaled e ds ds')
include h

omit h in
theorem band_of_mid {x : ℝ} (h0 : 0 ≤ x) (hm : Mid 600 x) : Band 600 600 1 x := by
  have h1 := hm.le
  rw [abs_of_nonneg h0] at h1
  refine ⟨h0, hm.imp id fun h => ?_, by rw [Nat.cast_one, one_mul]; exact h1⟩
  have := h.1
  rwa [abs_of_nonneg h0] at this

omit h in
theorem dist_mid {ds : DataSet Dbl} (h : ds.Moderate) {i j : Nat} (hi : i < ds.n) (hj : j < ds.n) : ∃ x, ds.dist i j = .fin x ∧ 0 ≤ x ∧ Mid 600 x := by
  obtain ⟨x, h1, h2, -⟩ := sqd_error h hi hj
  have hm := sqd_mid h hi hj h1
  exact ⟨_, (congrArg FloatOps.sqrt h1).trans (dbl_sqrt_fin h2 hm), nearest53_nonneg (Real.sqrt_nonneg _), hm.round (by norm_num) (by norm_num)⟩

theorem Rescaled.twin {i j : Nat} (hi : i < ds.n) (hj : j < ds.n) : InUnits e 600 600 1 (ds.dist i j) (ds'.dist i j) := by
  obtain ⟨x, h1, h2, h0⟩ := h.dist hi hj
  obtain ⟨a, g1, -, gm⟩ := dist_mid h.moderate hi hj
  obtain ⟨b, k1, k0, km⟩ := dist_mid h.moderate' (h.num ▸ hi) (h.num ▸ hj)
  obtain rfl : a = x := Dbl.fin.inj (g1.symm.trans h1)
  obtain rfl : b = 2 ^ e * a := Dbl.fin.inj (k1.symm.trans h2)
  exact ⟨a, h1, h2, band_of_mid h0 gm, band_of_mid k0 km⟩

theorem Rescaled.clusterDists (b : Buf Int) (c : Nat) : List.Forall₂ (InUnits e 600 600 1) (clusterDists ds.dist b ds.n c) (clusterDists ds'.dist b ds.n c) := by
  unfold Scc.clusterDists
  rw [List.forall₂_map_left_iff, List.forall₂_map_right_iff, List.forall₂_same]
  intro p hp
  have := mem_upperPairs_mem hp
  rw [List.mem_reverse, List.mem_reverse, mem_members, mem_members] at this
  exact h.twin this.1.1 this.2.1

/-! ### Statistics -/

theorem Rescaled.maxDist {k : Nat} {b : Buf Int} {s s' : Stats Dbl} (hE : ExtremesAre ds.dist ds.n k b s) (hE' : ExtremesAre ds'.dist ds.n k b s') : s'.maxDist = s.maxDist.times e := by
  by_cases hp : ∃ i j, i ≠ j ∧ SameCluster b ds.n k i j
  · obtain ⟨i, j, hij, hs, h1⟩ := hE.max_is hp
    obtain ⟨i', j', hij', hs', h1'⟩ := hE'.max_is hp
    have h2 := hE.le_max i j hij hs
    have h2' := hE'.le_max i' j' hij' hs'
    have h3 := hE.le_max i' j' hij' hs'
    have h3' := hE'.le_max i j hij hs
    obtain ⟨x, g1, g2, -⟩ := h.dist hs.1 hs.2.1
    obtain ⟨y, g3, g4, -⟩ := h.dist hs'.1 hs'.2.1
    rw [g1] at h1 h2
    rw [g4] at h1' h2'
    have e1 := eq_fin_of_le h1 h2
    have e2 := eq_fin_of_le h1' h2'
    rw [e1, g3, Dbl.le_fin] at h3
    rw [e2, g2, Dbl.le_fin, mul_le_mul_iff_right₀ (zpow2_pos e)] at h3'
    rw [e1, e2, le_antisymm h3 h3']
    rfl
  · rw [hE.max_zero hp, hE'.max_zero hp]
    exact (InUnits.zero (e := e) (l := 0) (U := 0) 0).eq

theorem Rescaled.minDist {k : Nat} {b : Buf Int} {s s' : Stats Dbl} (hE : ExtremesAre ds.dist ds.n k b s) (hE' : ExtremesAre ds'.dist ds.n k b s')
    (hpop : (∃ c, c < k ∧ (members b ds.n c).length = 1) ∨ ∃ i j, i ≠ j ∧ SameCluster b ds.n k i j) : s'.minDist = s.minDist.times e := by
  by_cases ha : ∃ c, c < k ∧ (members b ds.n c).length = 1
  · rw [hE.alone ha, hE'.alone ha]
    exact (InUnits.zero (e := e) (l := 0) (U := 0) 0).eq
  · have hp := hpop.resolve_left ha
    have hall : ∀ c, c < k → (members b ds.n c).length ≠ 1 := fun c hc h1 => ha ⟨c, hc, h1⟩
    obtain ⟨i, j, hij, hs, h1⟩ := hE.min_is hp hall
    obtain ⟨i', j', hij', hs', h1'⟩ := hE'.min_is hp hall
    have h2 := hE.min_le i j hij hs
    have h2' := hE'.min_le i' j' hij' hs'
    have h3 := hE.min_le i' j' hij' hs'
    have h3' := hE'.min_le i j hij hs
    obtain ⟨x, g1, g2, -⟩ := h.dist hs.1 hs.2.1
    obtain ⟨y, g3, g4, -⟩ := h.dist hs'.1 hs'.2.1
    rw [g1] at h1 h2
    rw [g4] at h1' h2'
    have e1 := eq_fin_of_le h2 h1
    have e2 := eq_fin_of_le h2' h1'
    rw [e1, g3, Dbl.le_fin] at h3
    rw [e2, g2, Dbl.le_fin, mul_le_mul_iff_right₀ (zpow2_pos e)] at h3'
    rw [e1, e2, le_antisymm h3 h3']
    rfl

section
variable {cfg : Cfg} (hcfg : cfg.Valid) {k : Nat} {b : Buf Int} (hk : k ≤ cfg.clabelMax) (hv : ValidLabels cfg b ds.n k) (hN : (pairsWithin cfg b ds.n).length ≤ 2 ^ 51) (hn : ds.n ≤ 2 ^ 64)
include hcfg hk hv hN hn

omit h hn in
theorem len_dists (hm : ds.Moderate) {c : Nat} (hc : c ∈ clustersFrom b ds.n k 2) (d : Nat → Nat → Dbl) : 0 < (clusterDists d b ds.n c).length ∧ (clusterDists d b ds.n c).length ≤ 2 ^ 51 := by
  have := cluster_bounds hcfg hm hk hv hN hc
  rw [length_clusterDists] at this
  rw [length_clusterDists]
  exact ⟨this.1, this.2.2⟩

omit hn in
theorem Rescaled.clusterTotal {c : Nat} (hc : c ∈ clustersFrom b ds.n k 2) :
    InUnits e 600 653 1 (sumOf (Scc.clusterDists ds.dist b ds.n c)) (sumOf (Scc.clusterDists ds'.dist b ds.n c)) := by
  have hl := (len_dists hcfg hk hv hN h.moderate hc ds.dist).2
  exact (InUnits.sumOf (by norm_num) (by norm_num) (by norm_num) (h.clusterDists b c) (by omega)).one (by omega)

omit hn in
theorem Rescaled.overClusters {l U : ℤ} (hl : l ≤ 1022) (hU : -1074 ≤ U) (hU' : U ≤ 970) {f g : Nat → Dbl} (hf : ∀ c ∈ clustersFrom b ds.n k 2, InUnits e l U 1 (f c) (g c)) :
    InUnits e l U (clustersFrom b ds.n k 2).length (Scc.clusterSum (clustersFrom b ds.n k 2) f) (Scc.clusterSum (clustersFrom b ds.n k 2) g) ∧ (clustersFrom b ds.n k 2).length ≤ 2 ^ 53 := by
  have hc := statClusters_le hcfg h.moderate hk hv hN
  exact ⟨InUnits.clusterSum hl hU hU' hf (by omega), by omega⟩

omit hn in
theorem Rescaled.average {l U : ℤ} (hl : l + 64 ≤ 1022) (hU : -1074 ≤ U) (hU' : U ≤ 970) {f g : Nat → Dbl} (hf : ∀ c ∈ clustersFrom b ds.n k 2, InUnits e l U 1 (f c) (g c)) {m : Nat} (h0 : 0 < m) (hm : m ≤ 2 ^ 64) :
    FloatOps.div (Scc.clusterSum (clustersFrom b ds.n k 2) g) (FloatOps.ofNat m) = (FloatOps.div (Scc.clusterSum (clustersFrom b ds.n k 2) f) (FloatOps.ofNat m)).times e := by
  obtain ⟨h1, h2⟩ := h.overClusters hcfg hk hv hN (by omega) hU hU' hf
  exact (h1.div h0 hm hl h2 hU hU').eq

omit hn in
theorem Rescaled.clusterMean {c : Nat} (hc : c ∈ clustersFrom b ds.n k 2) :
    InUnits e 664 653 1 (FloatOps.div (sumOf (Scc.clusterDists ds.dist b ds.n c)) (FloatOps.ofNat (Scc.clusterDists ds.dist b ds.n c).length))
      (FloatOps.div (sumOf (Scc.clusterDists ds'.dist b ds.n c)) (FloatOps.ofNat (Scc.clusterDists ds'.dist b ds.n c).length)) := by
  have hl := len_dists hcfg hk hv hN h.moderate hc ds.dist
  rw [show (Scc.clusterDists ds'.dist b ds.n c).length = (Scc.clusterDists ds.dist b ds.n c).length by rw [length_clusterDists, length_clusterDists]]
  exact (h.clusterTotal hcfg hk hv hN hc).div hl.1 (hl.2.trans (by norm_num)) (by norm_num) (by norm_num) (by norm_num) (by norm_num)

theorem Rescaled.clusterWeighted {c : Nat} (hc : c ∈ clustersFrom b ds.n k 2) :
    InUnits e 664 717 1 (FloatOps.div (FloatOps.mul (FloatOps.ofNat (members b ds.n c).length) (sumOf (Scc.clusterDists ds.dist b ds.n c))) (FloatOps.ofNat (Scc.clusterDists ds.dist b ds.n c).length))
      (FloatOps.div (FloatOps.mul (FloatOps.ofNat (members b ds.n c).length) (sumOf (Scc.clusterDists ds'.dist b ds.n c))) (FloatOps.ofNat (Scc.clusterDists ds'.dist b ds.n c).length)) := by
  have hl := len_dists hcfg hk hv hN h.moderate hc ds.dist
  rw [show (Scc.clusterDists ds'.dist b ds.n c).length = (Scc.clusterDists ds.dist b ds.n c).length by rw [length_clusterDists, length_clusterDists]]
  have h2 : 2 ≤ (members b ds.n c).length := of_decide_eq_true (List.mem_filter.1 hc).2
  have h3 : (members b ds.n c).length ≤ ds.n := (List.length_filter_le _ _).trans (by rw [List.length_range])
  exact ((h.clusterTotal hcfg hk hv hN hc).times (by omega) (h3.trans hn) (by norm_num) (by norm_num) (by norm_num) (by norm_num)).div hl.1 (hl.2.trans (by norm_num)) (by norm_num) (by norm_num)
    (by norm_num) (by norm_num)

end

end

end Scc
