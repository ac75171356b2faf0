/-
The arithmetic of `double` satisfies the laws that theorems about distances assume.
-/
import Verif.Proofs.Double
import Verif.Spec.Stats
import Verif.Spec.Double

set_option linter.unusedSimpArgs false

namespace Scc

namespace Dbl

theorem maxDouble_pos : 0 < maxDouble := by unfold maxDouble; norm_num

theorem isNum_iff (a : Dbl) : IsNum a ↔ a ≠ nan := by
  cases a <;> simp [IsNum, FloatOps.le, le]

theorem isNum_fin (x : ℝ) : IsNum (fin x) := (isNum_iff _).2 (by simp)

theorem le_iff {a b : Dbl} (ha : a ≠ nan) (hb : b ≠ nan) : FloatOps.le a b = true ↔ a.ext ≤ b.ext := by
  cases a <;> cases b <;> simp_all [FloatOps.le, le]

theorem lt_iff {a b : Dbl} (ha : a ≠ nan) (hb : b ≠ nan) : FloatOps.lt a b = true ↔ a.ext < b.ext := by
  cases a <;> cases b <;> simp_all [FloatOps.lt, lt]

theorem le_nan {a b : Dbl} (h : FloatOps.le a b = true) : a ≠ nan ∧ b ≠ nan := by
  cases a <;> cases b <;> simp_all [FloatOps.le, le]

theorem le_fin {x y : ℝ} : FloatOps.le (fin x) (fin y) = true ↔ x ≤ y := by
  rw [le_iff (by simp) (by simp)]
  simp [ext]

/-- The order laws. -/
theorem laws : FloatLaws Dbl where
  total a b ha hb := by
    rw [isNum_iff] at ha hb
    rw [le_iff ha hb, le_iff hb ha]
    exact le_total _ _
  trans a b c h1 h2 := by
    have ha := le_nan h1
    have hb := le_nan h2
    rw [le_iff ha.1 ha.2] at h1
    rw [le_iff hb.1 hb.2] at h2
    rw [le_iff ha.1 hb.2]
    exact h1.trans h2
  lt_iff a b ha hb := by
    rw [isNum_iff] at ha hb
    rw [lt_iff ha hb, ← Bool.not_eq_true, le_iff hb ha, not_le]
  nan_lt a b ha := by
    rw [isNum_iff, not_not] at ha
    subst ha
    cases b <;> rfl

/-! ### Signs -/

/-- Not negative and not a NaN. -/
def NonNeg : Dbl → Prop
  | nan => False
  | inf s => s = false
  | fin x => 0 ≤ x

theorem NonNeg.ne_nan {a : Dbl} (h : NonNeg a) : a ≠ nan := by rintro rfl; exact h

theorem NonNeg.ext {a : Dbl} (h : NonNeg a) : 0 ≤ a.ext := by
  cases a with
  | nan => exact h.elim
  | inf s => cases h; exact le_top
  | fin x => exact EReal.coe_nonneg.2 h

theorem round_nonneg {x : ℝ} (h : 0 ≤ x) : NonNeg (round x) := by
  unfold round
  split
  · exact nearest53_nonneg h
  · simp [NonNeg, h]

theorem round_ext_mono {x y : ℝ} (h : x ≤ y) (hx : 0 ≤ x) : (round x).ext ≤ (round y).ext := by
  have h1 := nearest53_nonneg hx
  have h2 := nearest53_mono h
  unfold round
  rw [abs_of_nonneg h1, abs_of_nonneg (h1.trans h2)]
  split
  · split
    · exact EReal.coe_le_coe_iff.2 h2
    · simp [Dbl.ext, not_lt.2 (hx.trans h)]
  · rename_i h3
    rw [if_neg (fun h4 => h3 (h2.trans h4))]
    simp [Dbl.ext, not_lt.2 hx, not_lt.2 (hx.trans h)]

theorem round_neg (x : ℝ) : round (-x) = neg (round x) := by
  unfold round
  rw [nearest53_neg, abs_neg]
  split
  · rfl
  · rename_i h
    have hx : x ≠ 0 := by
      rintro rfl
      rw [nearest53_zero, abs_zero] at h
      exact h maxDouble_pos.le
    rcases lt_or_gt_of_ne hx with h | h
    · simp [neg, h, not_lt.2 h.le]
    · simp [neg, h, not_lt.2 h.le]

theorem add_nonneg {a b : Dbl} (ha : NonNeg a) (hb : NonNeg b) : NonNeg (FloatOps.add a b) := by
  cases a with
  | nan => exact ha.elim
  | inf s =>
    cases b with
    | nan => exact hb.elim
    | inf t => cases ha; cases hb; rfl
    | fin y => exact ha
  | fin x =>
    cases b with
    | nan => exact hb.elim
    | inf t => exact hb
    | fin y => exact round_nonneg (_root_.add_nonneg ha hb)

theorem sq_nonneg {a : Dbl} (h : a ≠ nan) : NonNeg (FloatOps.mul a a) := by
  cases a with
  | nan => exact absurd rfl h
  | inf s => simp [FloatOps.mul, mul, NonNeg]
  | fin x => exact round_nonneg (mul_self_nonneg x)

theorem sqrt_nonneg {a : Dbl} (h : NonNeg a) : NonNeg (FloatOps.sqrt a) := by
  cases a with
  | nan => exact h.elim
  | inf s => cases h; rfl
  | fin x =>
    show NonNeg (if x < 0 then nan else round (Real.sqrt x))
    rw [if_neg (not_lt.2 h)]
    exact round_nonneg (Real.sqrt_nonneg x)

theorem sqrt_mono {a b : Dbl} (ha : NonNeg a) (hb : NonNeg b) (h : FloatOps.le a b = true) : FloatOps.le (FloatOps.sqrt a) (FloatOps.sqrt b) = true := by
  rw [le_iff ha.ne_nan hb.ne_nan] at h
  rw [le_iff (sqrt_nonneg ha).ne_nan (sqrt_nonneg hb).ne_nan]
  cases b with
  | nan => exact hb.elim
  | inf t => cases hb; exact le_top
  | fin y =>
    cases a with
    | nan => exact ha.elim
    | inf s => cases ha; exact absurd h (by simp [Dbl.ext])
    | fin x =>
      have h' : x ≤ y := EReal.coe_le_coe_iff.1 h
      show (if x < 0 then nan else round (Real.sqrt x)).ext ≤ (if y < 0 then nan else round (Real.sqrt y)).ext
      rw [if_neg (not_lt.2 ha), if_neg (not_lt.2 hb)]
      exact round_ext_mono (Real.sqrt_le_sqrt h') (Real.sqrt_nonneg x)

theorem sub_fin (x y : ℝ) : FloatOps.sub (fin x) (fin y) = round (x - y) := by
  show round (x + -y) = _
  rw [sub_eq_add_neg]

theorem round_ne_nan (x : ℝ) : round x ≠ nan := by
  unfold round
  split <;> simp

theorem mul_neg_neg (a : Dbl) : FloatOps.mul (neg a) (neg a) = FloatOps.mul a a := by
  cases a with
  | nan => rfl
  | inf s => cases s <;> rfl
  | fin x => show round (-x * -x) = round (x * x); rw [neg_mul_neg]

theorem round_zero : round 0 = fin 0 := by
  unfold round
  rw [nearest53_zero, abs_zero, if_pos maxDouble_pos.le]

theorem negOne_lt {a : Dbl} (h : NonNeg a) : FloatOps.lt (FloatOps.negOne : Dbl) a = true := by
  rw [lt_iff (show (FloatOps.negOne : Dbl) ≠ nan by show fin (-1) ≠ nan; simp) h.ne_nan]
  refine lt_of_lt_of_le ?_ h.ext
  show ((-1 : ℝ) : EReal) < 0
  exact_mod_cast (by norm_num : (-1 : ℝ) < 0)

theorem zero_le {a : Dbl} (h : NonNeg a) : FloatOps.le (FloatOps.zero : Dbl) a = true := by
  rw [le_iff (show (FloatOps.zero : Dbl) ≠ nan by show fin 0 ≠ nan; simp) h.ne_nan]
  show ((0 : ℝ) : EReal) ≤ _
  exact_mod_cast h.ext

end Dbl

namespace DataSet.FiniteCoords

variable {ds : DataSet Dbl}

theorem complete (h : ds.FiniteCoords) : ds.Complete := fun i hi => let ⟨x, hx⟩ := h i hi; ⟨_, hx⟩

theorem coord_eq (h : ds.FiniteCoords) {i t : Nat} (hi : i < ds.n) (ht : t < ds.dims) : ds.coord i t = .fin (ds.realCoord i t) := by
  have hlt : i * ds.dims + t < ds.n * ds.dims := by
    calc i * ds.dims + t < i * ds.dims + ds.dims := by omega
      _ = (i + 1) * ds.dims := by ring
      _ ≤ ds.n * ds.dims := Nat.mul_le_mul_right _ hi
  obtain ⟨x, hx⟩ := h _ hlt
  have : ds.coord i t = .fin x := by simp [DataSet.coord, hx]
  simp [DataSet.realCoord, this]

end DataSet.FiniteCoords

/-- One term of the squared distance. -/
noncomputable def DataSet.sqTerm (ds : DataSet Dbl) (i j t : Nat) : Dbl :=
  FloatOps.mul (FloatOps.sub (ds.coord i t) (ds.coord j t)) (FloatOps.sub (ds.coord i t) (ds.coord j t))

namespace DataSet.FiniteCoords

variable {ds : DataSet Dbl}

theorem sqTerm_nonneg (h : ds.FiniteCoords) {i j t : Nat} (hi : i < ds.n) (hj : j < ds.n) (ht : t < ds.dims) : Dbl.NonNeg (ds.sqTerm i j t) := by
  unfold DataSet.sqTerm
  rw [h.coord_eq hi ht, h.coord_eq hj ht, Dbl.sub_fin]
  exact Dbl.sq_nonneg (Dbl.round_ne_nan _)

theorem sqTerm_symm (h : ds.FiniteCoords) {i j t : Nat} (hi : i < ds.n) (hj : j < ds.n) (ht : t < ds.dims) : ds.sqTerm i j t = ds.sqTerm j i t := by
  unfold DataSet.sqTerm
  rw [h.coord_eq hi ht, h.coord_eq hj ht, Dbl.sub_fin, Dbl.sub_fin, ← neg_sub (ds.realCoord j t), Dbl.round_neg, Dbl.mul_neg_neg]

theorem sqTerm_self (h : ds.FiniteCoords) {i t : Nat} (hi : i < ds.n) (ht : t < ds.dims) : ds.sqTerm i i t = .fin 0 := by
  unfold DataSet.sqTerm
  rw [h.coord_eq hi ht, Dbl.sub_fin, sub_self, Dbl.round_zero]
  show Dbl.round (0 * 0) = _
  rw [zero_mul, Dbl.round_zero]

theorem sqd_nonneg (h : ds.FiniteCoords) {i j : Nat} (hi : i < ds.n) (hj : j < ds.n) : Dbl.NonNeg (ds.sqd i j) := by
  have key : ∀ (l : List Nat) (acc : Dbl), (∀ t ∈ l, t < ds.dims) → Dbl.NonNeg acc → Dbl.NonNeg (l.foldl (fun acc t => FloatOps.add acc (ds.sqTerm i j t)) acc) := by
    intro l
    induction l with
    | nil => exact fun _ _ h => h
    | cons t l ih =>
      intro acc hl ha
      exact ih _ (fun t ht => hl t (by simp [ht])) (Dbl.add_nonneg ha (h.sqTerm_nonneg hi hj (hl t (by simp))))
  exact key (List.range ds.dims) (.fin 0) (fun t ht => List.mem_range.1 ht) (le_refl (0 : ℝ))

theorem sqd_symm (h : ds.FiniteCoords) {i j : Nat} (hi : i < ds.n) (hj : j < ds.n) : ds.sqd i j = ds.sqd j i := by
  have key : ∀ (l : List Nat) (acc : Dbl), (∀ t ∈ l, t < ds.dims) →
      l.foldl (fun acc t => FloatOps.add acc (ds.sqTerm i j t)) acc = l.foldl (fun acc t => FloatOps.add acc (ds.sqTerm j i t)) acc := by
    intro l
    induction l with
    | nil => exact fun _ _ => rfl
    | cons t l ih =>
      intro acc hl
      rw [List.foldl_cons, List.foldl_cons, h.sqTerm_symm hi hj (hl t (by simp))]
      exact ih _ (fun t ht => hl t (by simp [ht]))
  exact key (List.range ds.dims) (.fin 0) fun t ht => List.mem_range.1 ht

theorem sqd_self (h : ds.FiniteCoords) {i : Nat} (hi : i < ds.n) : ds.sqd i i = .fin 0 := by
  have key : ∀ (l : List Nat), (∀ t ∈ l, t < ds.dims) → l.foldl (fun acc t => FloatOps.add acc (ds.sqTerm i i t)) (.fin 0) = .fin 0 := by
    intro l
    induction l with
    | nil => exact fun _ => rfl
    | cons t l ih =>
      intro hl
      rw [List.foldl_cons, h.sqTerm_self hi (hl t (by simp))]
      have : FloatOps.add (Dbl.fin 0) (.fin 0) = .fin 0 := by
        show Dbl.round (0 + 0) = _
        rw [add_zero, Dbl.round_zero]
      rw [this]
      exact ih (fun t ht => hl t (by simp [ht]))
  exact key (List.range ds.dims) fun t ht => List.mem_range.1 ht

theorem dist_nonneg (h : ds.FiniteCoords) {i j : Nat} (hi : i < ds.n) (hj : j < ds.n) : Dbl.NonNeg (ds.dist i j) := Dbl.sqrt_nonneg (h.sqd_nonneg hi hj)

/-- Distances computed from finite coordinates satisfy the laws assumed of distances, also when they overflow or underflow. -/
theorem metric (h : ds.FiniteCoords) : ds.Metric where
  complete := h.complete
  order := Dbl.laws
  sqnum p q hp hq := ⟨(Dbl.isNum_iff _).2 (h.sqd_nonneg hp hq).ne_nan, Dbl.negOne_lt (h.sqd_nonneg hp hq)⟩
  self p q hp hq := by rw [h.sqd_self hp]; exact Dbl.zero_le (h.sqd_nonneg hp hq)
  root p q r hp hq hr hle := Dbl.sqrt_mono (h.sqd_nonneg hp hq) (h.sqd_nonneg hp hr) hle
  pos p q hp hq := Dbl.negOne_lt (h.dist_nonneg hp hq)

/-- If no distance is infinite then distances satisfy what is assumed of them for statistics. -/
theorem finiteDists (h : ds.FiniteCoords) (hfin : ∀ p q, p < ds.n → q < ds.n → FloatOps.le (ds.dist p q) FloatOps.dblMax = true) : FiniteDists ds.n ds.dist where
  order := Dbl.laws
  num p q hp hq := (Dbl.isNum_iff _).2 (h.dist_nonneg hp hq).ne_nan
  nonneg p q hp hq := Dbl.zero_le (h.dist_nonneg hp hq)
  finite := hfin
  symm p q hp hq := by unfold DataSet.dist; rw [h.sqd_symm hp hq]
  zeroNum := Dbl.isNum_fin 0
  maxNum := Dbl.isNum_fin _

end DataSet.FiniteCoords

end Scc
