/-
C76: the library with the arithmetic of `double`. `Dbl` is in Model/Double.lean; `FiniteCoords`, `Moderate`, `eudist` and `nearFactor` are in Spec/Double.lean.
-/
import Verif.Proofs.DoubleExact
import Verif.Proofs.HiBuiltin
import Verif.Props.RadiusDiameter
import Verif.Props.DistSearch
import Verif.Props.HiTree

set_option linter.unusedSimpArgs false
set_option linter.unusedVariables false

namespace Scc

/-- C76, rounding. The exact result of an operation is replaced by a closest number with 53 bits, where the last bit is not below 2^-1074. Numbers with 53 bits stay as they are. Rounding keeps the order, and its relative
error is at most 2^-53 for results that are at least 2^-1022. This is what IEEE 754 requires of `double`, and shows that `nearest53` is its rounding. -/
theorem C76_rounding (x : ℝ) : Has53Bits (nearest53 x) ∧ (∀ y, Has53Bits y → |nearest53 x - x| ≤ |y - x|) ∧ (Has53Bits x → nearest53 x = x) ∧ (∀ y, x ≤ y → nearest53 x ≤ nearest53 y) ∧
    (2 ^ (-1022 : ℤ) ≤ |x| → |nearest53 x - x| ≤ 2 ^ (-53 : ℤ) * |x|) := by
  refine ⟨nearest53_bits x, nearest53_closest x, fun h => ?_, fun y h => nearest53_mono h, fun h => nearest53_error (Or.inr h)⟩
  have h1 := nearest53_closest x x h
  rw [sub_self, abs_zero] at h1
  exact sub_eq_zero.1 (abs_eq_zero.1 (le_antisymm h1 (abs_nonneg _)))

/-- C76, operations. Sums, differences, products, quotients and roots of finite values are the exact results rounded, if the rounded value is not larger than `DBL_MAX`. -/
theorem C76_operations (x y : ℝ) :
    (∀ z, |nearest53 z| ≤ maxDouble → (z = x + y → FloatOps.add (Dbl.fin x) (.fin y) = .fin (nearest53 z)) ∧ (z = x - y → FloatOps.sub (Dbl.fin x) (.fin y) = .fin (nearest53 z)) ∧
      (z = x * y → FloatOps.mul (Dbl.fin x) (.fin y) = .fin (nearest53 z)) ∧ (y ≠ 0 → z = x / y → FloatOps.div (Dbl.fin x) (.fin y) = .fin (nearest53 z)) ∧
      (0 ≤ x → z = Real.sqrt x → FloatOps.sqrt (Dbl.fin x) = .fin (nearest53 z))) ∧
    (FloatOps.le (Dbl.fin x) (.fin y) = true ↔ x ≤ y) ∧ (FloatOps.lt (Dbl.fin x) (.fin y) = true ↔ x < y) := by
  refine ⟨fun z hz => ⟨?_, ?_, ?_, ?_, ?_⟩, Dbl.le_fin, ?_⟩
  · rintro rfl; exact round_eq_fin hz
  · rintro rfl; rw [Dbl.sub_fin]; exact round_eq_fin hz
  · rintro rfl; exact round_eq_fin hz
  · rintro hy rfl
    show (if y = 0 then _ else Dbl.round (x / y)) = _
    rw [if_neg hy]; exact round_eq_fin hz
  · rintro hx rfl
    show (if x < 0 then _ else Dbl.round (Real.sqrt x)) = _
    rw [if_neg (not_lt.2 hx)]; exact round_eq_fin hz
  · rw [Dbl.lt_iff (by simp) (by simp)]
    exact EReal.coe_lt_coe_iff

/-- C76, laws. For finite coordinates, the distances that the library computes satisfy all laws that other properties assume of distances, in spite of rounding, overflow and underflow: they are not NaN and
not negative, no point is nearer to a point than itself, they are symmetric, and roots keep the order of squares. -/
theorem C76_laws {ds : DataSet Dbl} (h : ds.FiniteCoords) :
    ds.Metric ∧ (∀ p q, p < ds.n → q < ds.n → ds.dist p q = ds.dist q p ∧ FloatOps.le FloatOps.zero (ds.dist p q) = true) ∧
      ((∀ p q, p < ds.n → q < ds.n → FloatOps.le (ds.dist p q) FloatOps.dblMax = true) → FiniteDists ds.n ds.dist) :=
  ⟨h.metric, fun p q hp hq => ⟨by unfold DataSet.dist; rw [h.sqd_symm hp hq], Dbl.zero_le (h.dist_nonneg hp hq)⟩, h.finiteDists⟩

/-- C76, nearest neighbour search. Each of the `k` points found is at most `1 + 2^-31` times as far from the query, in Euclidean distance without rounding, as each point not found and as each point found later. -/
theorem C76_search {ds : DataSet Dbl} (hm : ds.Moderate) {search queries : Option Arr} {L Q : List Nat} {k : Nat} (radius : Dbl) {oq : OutQ} {nn : Buf Nat}
    {w : World} (h : SearchInput ds search L queries Q k oq nn w) :
    ∃ r w', searchOnce (builtinSpi (some ds)) L.length search Q.length queries k false radius oq nn w = some (r, w') ∧ w'.live = w.live ∧
      match r with
      | none => ∃ i c, w.fails i c = true
      | some out => out.numOk = Q.length ∧
          ∀ (i q : Nat), Q[i]? = some q → ∃ l, out.Neighbors k i l ∧ l.Nodup ∧ (∀ x ∈ l, x ∈ L) ∧ l.Pairwise (fun x y => ds.eudist q x ≤ nearFactor * ds.eudist q y) ∧
            ∀ x ∈ L, x ∉ l → ∀ y ∈ l, ds.eudist q y ≤ nearFactor * ds.eudist q x := by
  have hq := h.queryRange
  have hL := h.searchRange
  obtain ⟨r, w', h1, h2, h3⟩ := C21_nearest_neighbors Dbl.laws radius h fun q hq' x hx => (hm.finite.metric.sqnum q x (hq q hq') (hL x hx)).1
  refine ⟨r, w', h1, h2, ?_⟩
  cases r with
  | none => exact h3
  | some out =>
    obtain ⟨h4, -, h5⟩ := h3
    refine ⟨h4, fun i q hiq => ?_⟩
    obtain ⟨l, h6, h7, h8, h9, h10⟩ := h5 i q hiq
    have hqn := hq q (List.mem_of_getElem? hiq)
    refine ⟨l, h6, h7, h8, h9.imp_of_mem fun {a b} ha hb hab => noFarther_near hm hqn (hL a (h8 a ha)) (hL b (h8 b hb)) hab.1,
      fun x hx hxl y hy => noFarther_near hm hqn (hL y (h8 y hy)) (hL x hx) (h10 x hx hxl y hy).1⟩

/-- C76, distances. The distances that the library reports are the Euclidean distances up to a factor of `1 + 2^-31`. -/
theorem C76_dist_matrix {ds : DataSet Dbl} (hm : ds.Moderate) {points : Option Arr} {L : List Nat} {out : Buf Dbl} {w : World} (hp : ArrHolds points L)
    (hL : ∀ x ∈ L, x < ds.n) (hl : ∀ i ∈ arrIds points, i ∈ w.live) (hlen : L.length * (L.length - 1) / 2 ≤ out.len) :
    ∃ out', (builtinSpi (some ds)).distMatrix L.length points out w = some (some out', w) ∧ out'.len = out.len ∧
      ∀ (i a b : Nat), (upperPairs L)[i]? = some (a, b) → ∃ x, out'.get i = some (.fin x) ∧ 0 ≤ x ∧ x ≤ nearFactor * ds.eudist a b ∧ ds.eudist a b ≤ nearFactor * x := by
  obtain ⟨out', h1, h2, h3, -⟩ := C25_dist_matrix hm.finite.complete hp hL hl hlen
  refine ⟨out', h1, h2, fun i a b hi => ?_⟩
  have hmem := mem_of_upperPairs (List.mem_of_getElem? hi)
  obtain ⟨x, h4, h5⟩ := dist_near hm (hL a hmem.1) (hL b hmem.2)
  exact ⟨x, by rw [h3 i a b hi, h4], h5⟩
where
  mem_of_upperPairs {L : List Nat} {p : Nat × Nat} (h : p ∈ upperPairs L) : p.1 ∈ L ∧ p.2 ∈ L := by
    induction L with
    | nil => cases h
    | cons x xs ih =>
      rw [upperPairs, List.mem_append] at h
      rcases h with h | h
      · obtain ⟨y, hy, rfl⟩ := List.mem_map.1 h
        exact ⟨by simp, by simp [hy]⟩
      · exact ⟨by simp [(ih h).1], by simp [(ih h).2]⟩

/-- C76, maximum distance within clusters. If some clustering that meets the size and type constraints has maximum within-cluster distance at most `D`, then the clustering found has maximum within-cluster distance
at most `4 (1 + 2^-31)^2 D`. Distances are Euclidean, without rounding; the conditions are those of C11. -/
theorem C76_four_approximation {cfg : Cfg} {ds : DataSet Dbl} (hmod : ds.Moderate) {o : Options Dbl} {ob : ClObj} (hn : ob.cl.n = ds.n) {P : List Nat} {lab c : Nat → Nat} {w : World}
    (hc : CallOk cfg o ob P lab c w) {m : SeedMethod} (hm : o.seedMethod = .method m)
    (hum : o.primaryMethod = .closestAssigned ∨ o.primaryMethod = .closestSeed → o.seedRadius = .noRadius) (hum2 : o.secondaryMethod = .ignore)
    {D : ℝ} {f : Nat → Option Nat} (hf : Feasible ds.eudist ds.n o P lab c D f) :
    OnSuccess cfg (builtinSpi (some ds)) o ob w fun k b => ∀ i, i < k → ∀ u ∈ members b ds.n i, ∀ v ∈ members b ds.n i, ds.eudist u v ≤ 4 * (1 + 2 ^ (-31 : ℤ)) ^ 2 * D := by
  rw [← hn] at hf
  obtain ⟨e, p, w', h1, h2⟩ := C75_near_neighbours (eudist_metric ds) nearFactor_one (by rw [hn]; exact doubleSpi hmod) hc hm hum hum2 hf
  refine ⟨e, p, w', h1, fun he => ?_⟩
  obtain ⟨hfl, cl, b, h3, h4, h5, h6, h7, h8⟩ := h2 he
  rw [hn] at h8
  exact ⟨hfl, cl, b, h3, h4, h5, h6, h7, fun i hi u hu v hv => (h8 i hi u hu v hv).1⟩

/-- C76 for batches. -/
theorem C76_four_approximation_batches {cfg : Cfg} {ds : DataSet Dbl} (hmod : ds.Moderate) {o : Options Dbl} {ob : ClObj} (hn : ob.cl.n = ds.n) {P : List Nat} {lab c : Nat → Nat} {w : World}
    (hc : CallOk cfg o ob P lab c w) (hm : o.seedMethod = .batches) (hfit : BatchFits o ds.n) {D : ℝ} {f : Nat → Option Nat} (hf : Feasible ds.eudist ds.n o P lab c D f) :
    OnSuccess cfg (builtinSpi (some ds)) o ob w fun k b => ∀ i, i < k → ∀ u ∈ members b ds.n i, ∀ v ∈ members b ds.n i, ds.eudist u v ≤ 4 * (1 + 2 ^ (-31 : ℤ)) * D := by
  rw [← hn] at hf hfit
  obtain ⟨e, p, w', h1, h2⟩ := C75_near_neighbours_batches (eudist_metric ds) nearFactor_one (by rw [hn]; exact doubleSpi hmod) hc hm hfit hf
  refine ⟨e, p, w', h1, fun he => ?_⟩
  obtain ⟨hfl, cl, b, h3, h4, h5, h6, h7, h8⟩ := h2 he
  rw [hn] at h8
  exact ⟨hfl, cl, b, h3, h4, h5, h6, h7, h8⟩

/-- C76, radius. With a seed radius `r` (at least 2^-500 and at most 2^500) that is also the radius for other points, no two points of a cluster are farther apart than `4 (1 + 2^-31) r`, and not farther than half of that if
no points are assigned after the seeds. -/
theorem C76_radius_diameter {cfg : Cfg} {ds : DataSet Dbl} (hmod : ds.Moderate) {o : Options Dbl} {ob : ClObj} (hn : ob.cl.n = ds.n) {P : List Nat} {lab c : Nat → Nat} {w : World}
    (hc : CallOk cfg o ob P lab c w) {m : SeedMethod} (hm : o.seedMethod = .method m) {r : ℝ} (hr : o.seedRadius = .useSupplied) (hr1 : o.seedSupplied = .fin r) (hr2 : 2 ^ (-500 : ℤ) ≤ r) (hr3 : r ≤ 2 ^ (500 : ℤ))
    (h1 : o.primaryMethod = .closestAssigned ∨ o.primaryMethod = .closestSeed → o.primaryRadius = .useSeedRadius) (h2 : o.secondaryMethod ≠ .ignore → o.secondaryRadius = .useSeedRadius) :
    OnSuccess cfg (builtinSpi (some ds)) o ob w fun k b => ∀ i, i < k → ∀ u ∈ members b ds.n i, ∀ v ∈ members b ds.n i, ds.eudist u v ≤ 4 * ((1 + 2 ^ (-31 : ℤ)) * r) ∧
      (o.primaryMethod = .ignore → o.secondaryMethod = .ignore → ds.eudist u v ≤ 2 * ((1 + 2 ^ (-31 : ℤ)) * r)) := by
  have hr0 : 0 ≤ r := (zpow2_pos _).le.trans hr2
  obtain ⟨e, p, w', h3, h4⟩ := C77_radius_diameter (R := nearFactor * r) (eudist_metric ds) (by rw [hn]; exact doubleSpi hmod) hc hm hr (by
    intro q x hq hx hw
    rw [hn] at hq hx
    rw [hr1] at hw
    exact within_near hmod hq hx hr0 (Or.inr (by rw [abs_of_nonneg hr0]; exact ⟨hr2, hr3⟩)) hw) (fun h => Or.inl (h1 h)) (fun h => Or.inl (h2 h))
  refine ⟨e, p, w', h3, fun he => ?_⟩
  obtain ⟨hfl, cl, b, h3, h4, h5, h6, h7, h8⟩ := h4 he
  rw [hn] at h8
  exact ⟨hfl, cl, b, h3, h4, h5, h6, h7, h8⟩

/-- C76, integers. For points with integer coordinates that are not farther apart than 2^26.5, the comparisons of distances are exact, and the distances that the library reports are the Euclidean distances, rounded
once. -/
theorem C76_integers {ds : DataSet Dbl} (h : ds.SmallIntegers) :
    (∀ q x y, q < ds.n → x < ds.n → y < ds.n → (FloatOps.le (ds.sqd q x) (ds.sqd q y) = true ↔ ds.eudist q x ≤ ds.eudist q y)) ∧
      ∀ i j, i < ds.n → j < ds.n → ds.dist i j = .fin (nearest53 (ds.eudist i j)) :=
  ⟨fun _ _ _ hq hx hy => noFarther_integers h hq hx hy, fun _ _ hi hj => dist_integers h hi hj⟩

/-- C76, integers: the guarantee of C11 holds with the factor 4. -/
theorem C76_four_approximation_integers {cfg : Cfg} {ds : DataSet Dbl} (hi : ds.SmallIntegers) {o : Options Dbl} {ob : ClObj} (hn : ob.cl.n = ds.n) {P : List Nat} {lab c : Nat → Nat} {w : World}
    (hc : CallOk cfg o ob P lab c w) {m : SeedMethod} (hm : o.seedMethod = .method m)
    (hum : o.primaryMethod = .closestAssigned ∨ o.primaryMethod = .closestSeed → o.seedRadius = .noRadius) (hum2 : o.secondaryMethod = .ignore)
    {D : ℝ} {f : Nat → Option Nat} (hf : Feasible ds.eudist ds.n o P lab c D f) :
    OnSuccess cfg (builtinSpi (some ds)) o ob w fun k b => ∀ i, i < k → ∀ u ∈ members b ds.n i, ∀ v ∈ members b ds.n i, ds.eudist u v ≤ 4 * D := by
  rw [← hn] at hf
  obtain ⟨e, p, w', h1, h2⟩ := C11_four_approximation (eudist_metric ds) (by rw [hn]; exact integersSpi hi) hc hm hum hum2 hf
  refine ⟨e, p, w', h1, fun he => ?_⟩
  obtain ⟨hfl, cl, b, h3, h4, h5, h6, h7, h8⟩ := h2 he
  rw [hn] at h8
  exact ⟨hfl, cl, b, h3, h4, h5, h6, h7, fun i hi u hu v hv => by have := h8 i hi u hu v hv; rwa [nsmul_eq_mul] at this⟩

/-! ### The hypotheses hold for points on a line -/

/-- Six points on a line, with coordinates of type `double`. -/
noncomputable def lineDbl : DataSet Dbl := ⟨dataSetVersion, 6, 1, some (Buf.ofList [.fin 0, .fin 1, .fin 3, .fin 7, .fin 8, .fin 20])⟩

/-- The coordinates. -/
def lineAt (i : Nat) : ℤ := [0, 1, 3, 7, 8, 20].getD i 0

theorem lineDbl_coord {i : Nat} (hi : i < 6) : lineDbl.realCoord i 0 = lineAt i := by
  have : i = 0 ∨ i = 1 ∨ i = 2 ∨ i = 3 ∨ i = 4 ∨ i = 5 := by omega
  rcases this with rfl | rfl | rfl | rfl | rfl | rfl <;> simp [DataSet.realCoord, DataSet.coord, DataSet.buf, lineDbl, Buf.ofList, Buf.get, lineAt]

theorem lineDbl_finite : lineDbl.FiniteCoords := by
  intro i hi
  have hi' : i < 6 := hi
  have : i = 0 ∨ i = 1 ∨ i = 2 ∨ i = 3 ∨ i = 4 ∨ i = 5 := by omega
  rcases this with rfl | rfl | rfl | rfl | rfl | rfl <;> exact ⟨_, by simp [DataSet.buf, lineDbl, Buf.ofList, Buf.get]; rfl⟩

theorem lineDbl_moderate : lineDbl.Moderate where
  finite := lineDbl_finite
  dims := by show 1 ≤ 2 ^ 20; norm_num
  spread i j t hi hj ht := by
    have ht' : t = 0 := by have : t < 1 := ht; omega
    subst ht'
    rw [lineDbl_coord hi, lineDbl_coord hj]
    have h1 : lineAt i = lineAt j ∨ 1 ≤ |lineAt i - lineAt j| ∧ |lineAt i - lineAt j| ≤ 20 :=
      (by decide : ∀ i, i < 6 → ∀ j, j < 6 → lineAt i = lineAt j ∨ 1 ≤ |lineAt i - lineAt j| ∧ |lineAt i - lineAt j| ≤ 20) i hi j hj
    rcases h1 with h1 | ⟨h1, h2⟩
    · exact Or.inl (by rw [h1])
    · right
      have e1 : (1 : ℝ) ≤ |(lineAt i : ℝ) - lineAt j| := by exact_mod_cast h1
      have e2 : |(lineAt i : ℝ) - lineAt j| ≤ 20 := by exact_mod_cast h2
      constructor
      · refine le_trans ?_ e1
        exact zpow_le_one_of_nonpos₀ (by norm_num) (by norm_num)
      · refine e2.trans ?_
        calc (20 : ℝ) ≤ 2 ^ (5 : ℤ) := by norm_num
          _ ≤ 2 ^ (500 : ℤ) := zpow_le_zpow_right₀ (by norm_num) (by norm_num)

theorem lineDbl_eudist {i j : Nat} (hi : i < 6) (hj : j < 6) : lineDbl.eudist i j = |(lineAt i : ℝ) - lineAt j| := by
  have h := eudist_sq lineDbl i j
  have h1 : lineDbl.dims = 1 := rfl
  rw [h1, Finset.sum_range_one, lineDbl_coord hi, lineDbl_coord hj] at h
  rw [← abs_of_nonneg (eudist_nonneg lineDbl i j)]
  exact (sq_eq_sq_iff_abs_eq_abs _ _).1 h

theorem lineDbl_integers : lineDbl.SmallIntegers where
  finite := lineDbl_finite
  integer i t hi ht := by
    have ht' : t = 0 := by have : t < 1 := ht; omega
    subst ht'
    exact ⟨_, lineDbl_coord hi⟩
  bound i j hi hj := by
    rw [lineDbl_eudist hi hj, sq_abs]
    have := (by decide : ∀ i, i < 6 → ∀ j, j < 6 → (lineAt i - lineAt j) ^ 2 ≤ 2 ^ 53) i hi j hj
    exact_mod_cast this

example : ∃ x, lineDbl.dist 1 3 = .fin x ∧ x = 6 := by
  refine ⟨_, (C76_integers lineDbl_integers).2 1 3 (by decide) (by decide), ?_⟩
  rw [lineDbl_eudist (by decide) (by decide)]
  have : |((lineAt 1 : ℤ) : ℝ) - (lineAt 3 : ℤ)| = ((6 : ℤ) : ℝ) := by norm_num [lineAt]
  rw [this, nearest53_int (by norm_num)]
  norm_num

/-- A tie is rounded to the even number. -/
example : Has53Bits (2 ^ 53 - 1) ∧ nearest53 (2 ^ 53 + 1) = 2 ^ 53 ∧ nearest53 (2 ^ 53 + 3) = 2 ^ 53 + 4 := by
  have hl : ∀ x : ℝ, 2 ^ 53 ≤ x → x < 2 ^ 54 → lastBit x = 1 := by
    intro x h1 h2
    have h0 : 0 < x := lt_of_lt_of_le (by norm_num) h1
    have e : Int.log 2 |x| = 53 := by
      rw [abs_of_pos h0]
      have h3 : (53 : ℤ) ≤ Int.log 2 x := (Int.zpow_le_iff_le_log (by norm_num) h0).1 (by exact_mod_cast h1)
      have h4 : Int.log 2 x < (54 : ℤ) := (Int.lt_zpow_iff_log_lt (by norm_num) h0).1 (by exact_mod_cast h2)
      omega
    unfold lastBit
    rw [e]; norm_num
  refine ⟨⟨2 ^ 53 - 1, 0, by norm_num, by norm_num, by norm_num⟩, ?_, ?_⟩
  · unfold nearest53
    rw [hl _ (by norm_num) (by norm_num), roundEven_unique (n := 2 ^ 52)]
    · norm_num
    · exact Or.inr ⟨by norm_num [abs_of_pos], by norm_num⟩
  · unfold nearest53
    rw [hl _ (by norm_num) (by norm_num), roundEven_unique (n := 2 ^ 52 + 2)]
    · norm_num
    · exact Or.inr ⟨by norm_num [abs_of_neg], by norm_num⟩

example : SearchInput lineDbl none (List.range 6) (some ⟨[7], Buf.ofList [2, 5, 0]⟩) [2, 5, 0] 2 .same (Buf.raw 6) (sampleWorld [7]) where
  complete := lineDbl_finite.complete
  searchHolds := rfl
  queryHolds := (lineSearch_input .same (Or.inr (by decide))).queryHolds
  distinct := List.nodup_range
  searchRange x hx := List.mem_range.1 hx
  queryRange := by show ∀ x ∈ [2, 5, 0], x < 6; decide
  searchLive := by simp [arrIds]
  queryLive := (lineSearch_input .same (Or.inr (by decide))).queryLive
  someQuery := by simp
  kpos := by decide
  kle := by decide
  room := by decide
  oroom := Or.inr (by decide)
  same _ := by simp

example : ∃ out', (builtinSpi (some lineDbl)).distMatrix 6 none (Buf.raw 15) (sampleWorld []) = some (some out', sampleWorld []) ∧ out'.len = 15 ∧
    ∀ (i a b : Nat), (upperPairs (List.range 6))[i]? = some (a, b) → ∃ x, out'.get i = some (.fin x) ∧ 0 ≤ x ∧ x ≤ nearFactor * lineDbl.eudist a b ∧ lineDbl.eudist a b ≤ nearFactor * x := by
  have h := C76_dist_matrix lineDbl_moderate (points := none) (L := List.range 6) (out := Buf.raw 15) (w := sampleWorld []) rfl (fun x hx => List.mem_range.1 hx) (by simp [arrIds]) (by simp [Buf.raw])
  rwa [List.length_range] at h

/-- Options for clusters of at least two points. -/
noncomputable def dblOpts (um : UnassignedMethod) (pr : RadiusMethod) : Options Dbl := { (defaultOptions : Options Dbl) with sizeConstraint := 2, primaryMethod := um, primaryRadius := pr }

theorem dbl_callOk {o : Options Dbl} (h1 : o.sizeConstraint = 2) (h2 : o.numTypes = 0) (h3 : o.primary = none) (h4 : o.typeLabels = none) (h5 : o.typeConstraints = none) :
    CallOk sampleCfg o lineObj (List.range 6) (fun _ => 0) (fun _ => 0) (sampleWorld [5]) where
  config := sampleCfg_valid
  live := by simp [lineObj, sampleWorld, ptrOwn, ptrIds]
  room := by intro lb h; cases h
  arrays := ⟨fun _ => rfl, fun b h => (by rw [h3] at h; cases h), fun x hx => List.mem_range.1 hx, fun b h => (by omega), fun b h => (by omega)⟩
  limits := fun _ => ⟨by rw [h1]; show 6 * 2 ≤ 2 ^ 64 - 1; decide, fun h => by omega⟩
  unchecked := fun _ => rfl

theorem lineDbl_feasible {o : Options Dbl} (hS : o.sizeConstraint = 2) (ht : o.numTypes < 2) : Feasible lineDbl.eudist 6 o (List.range 6) (fun _ => 0) (fun _ => 0) 13 (fun v => some (v / 3)) where
  assigned := nofun
  size := by rw [hS]; decide
  types h := by omega
  diameter u v hu hv _ h := by
    rw [lineDbl_eudist hu hv]
    have := (by decide : ∀ u, u < 6 → ∀ v, v < 6 → some (u / 3) = some (v / 3) → |lineAt u - lineAt v| ≤ 13) u hu v hv h
    exact_mod_cast this

example : OnSuccess sampleCfg (builtinSpi (some lineDbl)) (dblOpts .closestSeed .noRadius) lineObj (sampleWorld [5])
    fun k b => ∀ i, i < k → ∀ u ∈ members b 6 i, ∀ v ∈ members b 6 i, lineDbl.eudist u v ≤ 4 * (1 + 2 ^ (-31 : ℤ)) ^ 2 * 13 :=
  C76_four_approximation lineDbl_moderate rfl (dbl_callOk rfl rfl rfl rfl rfl) rfl (fun _ => rfl) rfl (lineDbl_feasible rfl (by decide))

example : OnSuccess sampleCfg (builtinSpi (some lineDbl)) { (dblOpts .anyNeighbor .useSeedRadius) with seedMethod := .batches, batchSize := 3 } lineObj (sampleWorld [5])
    fun k b => ∀ i, i < k → ∀ u ∈ members b 6 i, ∀ v ∈ members b 6 i, lineDbl.eudist u v ≤ 4 * (1 + 2 ^ (-31 : ℤ)) * 13 :=
  C76_four_approximation_batches lineDbl_moderate rfl (dbl_callOk rfl rfl rfl rfl rfl) rfl (by show 2 * 3 < 2 ^ 32; decide) (lineDbl_feasible rfl (by show 0 < 2; decide))

example : OnSuccess sampleCfg (builtinSpi (some lineDbl)) { (dblOpts .anyNeighbor .useSeedRadius) with seedRadius := .useSupplied, seedSupplied := .fin 2 } lineObj (sampleWorld [5])
    fun k b => ∀ i, i < k → ∀ u ∈ members b 6 i, ∀ v ∈ members b 6 i, lineDbl.eudist u v ≤ 4 * ((1 + 2 ^ (-31 : ℤ)) * 2) ∧
      (UnassignedMethod.anyNeighbor = .ignore → UnassignedMethod.ignore = .ignore → lineDbl.eudist u v ≤ 2 * ((1 + 2 ^ (-31 : ℤ)) * 2)) :=
  C76_radius_diameter lineDbl_moderate rfl (dbl_callOk rfl rfl rfl rfl rfl) (m := .lexical) rfl rfl rfl ((zpow_le_one_of_nonpos₀ (by norm_num) (by norm_num)).trans (by norm_num))
    (by
      calc (2 : ℝ) = 2 ^ (1 : ℤ) := by norm_num
        _ ≤ 2 ^ (500 : ℤ) := zpow_le_zpow_right₀ (by norm_num) (by norm_num)) (fun _ => rfl) (fun _ => rfl)

/-! ### Without the limits of `Moderate` -/

/-- Three points on a line at 0, `a` and `b`. -/
noncomputable def threeDbl (a b : ℝ) : DataSet Dbl := ⟨dataSetVersion, 3, 1, some (Buf.ofList [.fin 0, .fin a, .fin b])⟩

theorem threeDbl_finite (a b : ℝ) : (threeDbl a b).FiniteCoords := by
  intro i hi
  have hi' : i < 3 := hi
  have : i = 0 ∨ i = 1 ∨ i = 2 := by omega
  rcases this with rfl | rfl | rfl <;> exact ⟨_, by simp [DataSet.buf, threeDbl, Buf.ofList, Buf.get]; rfl⟩

theorem threeDbl_coord (a b : ℝ) : (threeDbl a b).realCoord 0 0 = 0 ∧ (threeDbl a b).realCoord 1 0 = a ∧ (threeDbl a b).realCoord 2 0 = b := by
  refine ⟨?_, ?_, ?_⟩ <;> simp [DataSet.realCoord, DataSet.coord, DataSet.buf, threeDbl, Buf.ofList, Buf.get]

theorem threeDbl_eudist (a b : ℝ) (i j : Nat) : (threeDbl a b).eudist i j = |(threeDbl a b).realCoord i 0 - (threeDbl a b).realCoord j 0| := by
  have h := eudist_sq (threeDbl a b) i j
  have h1 : (threeDbl a b).dims = 1 := rfl
  rw [h1, Finset.sum_range_one] at h
  rw [← abs_of_nonneg (eudist_nonneg (threeDbl a b) i j)]
  exact (sq_eq_sq_iff_abs_eq_abs _ _).1 h

theorem threeDbl_sqd {a b : ℝ} {e : ℤ} {j : Nat} (hj : j < 3) (hx : (threeDbl a b).realCoord j 0 = 2 ^ e) (he : -1074 ≤ e) (he2 : e ≤ 1023) :
    (threeDbl a b).sqd 0 j = FloatOps.add (Dbl.fin 0) (Dbl.round (2 ^ (2 * e))) := by
  have h := threeDbl_finite a b
  have h1 : (threeDbl a b).sqd 0 j = FloatOps.add (Dbl.fin 0) ((threeDbl a b).sqTerm 0 j 0) := rfl
  rw [h1]
  congr 1
  unfold DataSet.sqTerm
  rw [h.coord_eq (show 0 < 3 by omega) (show 0 < 1 by omega), h.coord_eq hj (show 0 < 1 by omega), Dbl.sub_fin, hx, (threeDbl_coord a b).1, zero_sub, Dbl.round_neg, Dbl.mul_neg_neg]
  have h2 : nearest53 ((2 : ℝ) ^ e) = 2 ^ e := nearest53_zpow e he
  rw [round_eq_fin (by rw [h2, abs_of_pos (zpow2_pos e)]; exact (zpow_le_zpow_right₀ (by norm_num) he2).trans zpow_le_maxDouble), h2]
  show Dbl.round ((2 : ℝ) ^ e * 2 ^ e) = _
  rw [← zpow_add₀ (by norm_num), two_mul]

theorem lastBit_zpow (e : ℤ) : lastBit (2 ^ e) = max (e - 52) (-1074) := by
  unfold lastBit
  rw [abs_of_pos (zpow2_pos e)]
  have := Int.log_zpow (R := ℝ) (b := 2) (by norm_num) e
  push_cast at this
  rw [this]

/-- C76, limits. If differences of coordinates are so small or so large that their squares leave the range of `double`, then comparisons of distances can be wrong by any factor: of two points, one 2^50 times as far away as the
other, the library can take the farther one as a nearest neighbour. The coordinates themselves are valid. -/
theorem C76_limits :
    (∃ ds : DataSet Dbl, ds.FiniteCoords ∧ ds.n = 3 ∧ ds.NoFarther 0 2 1 ∧ 0 < ds.eudist 0 1 ∧ ds.eudist 0 2 = 2 ^ 50 * ds.eudist 0 1 ∧ ds.eudist 0 2 < 1) ∧
    ∃ ds : DataSet Dbl, ds.FiniteCoords ∧ ds.n = 3 ∧ ds.NoFarther 0 2 1 ∧ 1 < ds.eudist 0 1 ∧ ds.eudist 0 2 = 2 ^ 50 * ds.eudist 0 1 ∧ ds.eudist 0 2 ≤ maxDouble := by
  have hdist : ∀ e f : ℤ, (threeDbl (2 ^ e) (2 ^ f)).eudist 0 1 = 2 ^ e ∧ (threeDbl (2 ^ e) (2 ^ f)).eudist 0 2 = 2 ^ f := by
    intro e f
    obtain ⟨h1, h2, h3⟩ := threeDbl_coord (2 ^ e) (2 ^ f)
    rw [threeDbl_eudist, threeDbl_eudist, h1, h2, h3, zero_sub, zero_sub, abs_neg, abs_neg, abs_of_pos (zpow2_pos e), abs_of_pos (zpow2_pos f)]
    exact ⟨rfl, rfl⟩
  have hpow : ∀ e : ℤ, (2 : ℝ) ^ (e + 50) = 2 ^ 50 * 2 ^ e := by
    intro e
    rw [add_comm, zpow_add₀ (by norm_num)]
    norm_num
  constructor
  · refine ⟨threeDbl (2 ^ (-600 : ℤ)) (2 ^ (-550 : ℤ)), threeDbl_finite _ _, rfl, ?_, ?_, ?_, ?_⟩
    · have hz : ∀ e : ℤ, e ≤ -1080 → Dbl.round ((2 : ℝ) ^ e) = .fin 0 := by
        intro e he
        have h0 : nearest53 ((2 : ℝ) ^ e) = 0 := by
          unfold nearest53
          rw [lastBit_zpow, max_eq_right (by omega), roundEven_unique (n := 0), Int.cast_zero, zero_mul]
          left
          rw [Int.cast_zero, sub_zero, ← zpow_sub₀ (by norm_num), abs_of_pos (zpow2_pos _)]
          calc (2 : ℝ) ^ (e - -1074) ≤ 2 ^ (-2 : ℤ) := zpow_le_zpow_right₀ (by norm_num) (by omega)
            _ < 1 / 2 := by norm_num
        rw [round_eq_fin (by rw [h0, abs_zero]; exact Dbl.maxDouble_pos.le), h0]
      unfold DataSet.NoFarther
      rw [threeDbl_sqd (by omega) (threeDbl_coord _ _).2.1 (by norm_num) (by norm_num), threeDbl_sqd (by omega) (threeDbl_coord _ _).2.2 (by norm_num) (by norm_num),
        hz _ (by norm_num), hz _ (by norm_num)]
      show FloatOps.le (Dbl.round (0 + 0)) (Dbl.round (0 + 0)) = true
      rw [add_zero, Dbl.round_zero, Dbl.le_fin]
    · rw [(hdist _ _).1]; exact zpow2_pos _
    · rw [(hdist _ _).1, (hdist _ _).2, ← hpow]; norm_num
    · rw [(hdist _ _).2]
      exact zpow_lt_one_of_neg₀ (by norm_num) (by norm_num)
  · refine ⟨threeDbl (2 ^ (900 : ℤ)) (2 ^ (950 : ℤ)), threeDbl_finite _ _, rfl, ?_, ?_, ?_, ?_⟩
    · have hz : ∀ e : ℤ, 1025 ≤ e → Dbl.round ((2 : ℝ) ^ e) = .inf false := by
        intro e he
        unfold Dbl.round
        rw [nearest53_zpow e (by omega), if_neg, decide_eq_false (not_lt.2 (zpow2_pos e).le)]
        rw [abs_of_pos (zpow2_pos e), not_le]
        calc maxDouble < 2 ^ 53 * 2 ^ 971 := mul_lt_mul_of_pos_right (by norm_num) (by positivity)
          _ = (2 : ℝ) ^ (1024 : ℤ) := by
            rw [← zpow_natCast, ← zpow_natCast, ← zpow_add₀ (by norm_num)]
            congr 1
          _ ≤ 2 ^ e := zpow_le_zpow_right₀ (by norm_num) (by omega)
      unfold DataSet.NoFarther
      rw [threeDbl_sqd (by omega) (threeDbl_coord _ _).2.1 (by norm_num) (by norm_num), threeDbl_sqd (by omega) (threeDbl_coord _ _).2.2 (by norm_num) (by norm_num),
        hz _ (by norm_num), hz _ (by norm_num)]
      show FloatOps.le (Dbl.inf false) (Dbl.inf false) = true
      rw [Dbl.le_iff (by simp) (by simp)]
    · rw [(hdist _ _).1]; exact one_lt_zpow₀ (by norm_num) (by norm_num)
    · rw [(hdist _ _).1, (hdist _ _).2, ← hpow]; norm_num
    · rw [(hdist _ _).2]
      exact (zpow_le_zpow_right₀ (by norm_num) (by norm_num)).trans zpow_le_maxDouble

end Scc
