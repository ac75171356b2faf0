/-
Distances computed in `double` compare like the exact ones when these are not close to each other.
-/
import Verif.Spec.HiClearDouble
import Verif.Proofs.HiClear
import Verif.Props.DoubleMore

namespace Scc

theorem realLe {a b : ℝ} : FloatOps.le a b = true ↔ a ≤ b := by
  show decide (a ≤ b) = true ↔ a ≤ b
  simp

theorem one_le_nearFactor : 1 ≤ nearFactor := by
  have : (0 : ℝ) < 2 ^ (-31 : ℤ) := by positivity
  unfold nearFactor
  linarith

theorem eudist_self (ds : DataSet Dbl) (x : Nat) : ds.eudist x x = 0 := _root_.dist_self _

theorem eudist_comm (ds : DataSet Dbl) (x y : Nat) : ds.eudist x y = ds.eudist y x := _root_.dist_comm _ _

theorem pair_le_near {ds : DataSet Dbl} (h : ds.Moderate) {x y u v : Nat} (hx : x < ds.n) (hy : y < ds.n) (hu : u < ds.n) (hv : v < ds.n) (hle : FloatOps.le (ds.dist x y) (ds.dist u v) = true) :
    ds.eudist x y ≤ nearFactor * ds.eudist u v := by
  obtain ⟨a, ha, ha0, -, ha1, ha2⟩ := dist_error h hx hy
  obtain ⟨b, hb, hb0, -, hb1, hb2⟩ := dist_error h hu hv
  rw [ha, hb, Dbl.le_fin] at hle
  exact le_of_sq_error (m := ds.dims + 5) (eudist_nonneg _ _ _) (by have := h.dims; omega) (ha1.trans ((pow_le_pow_left₀ ha0 hle 2).trans hb2))

theorem pair_total {ds : DataSet Dbl} (h : ds.Moderate) {x y u v : Nat} (hx : x < ds.n) (hy : y < ds.n) (hu : u < ds.n) (hv : v < ds.n) :
    FloatOps.le (ds.dist x y) (ds.dist u v) = true ∨ FloatOps.le (ds.dist u v) (ds.dist x y) = true := by
  obtain ⟨a, ha, -⟩ := dist_error h hx hy
  obtain ⟨b, hb, -⟩ := dist_error h hu hv
  rw [ha, hb, Dbl.le_fin, Dbl.le_fin]
  exact le_total a b

/-- Two points at the same place have the distance zero, as computed. -/
theorem dist_zero {ds : DataSet Dbl} (h : ds.Moderate) {x y u v : Nat} (hx : x < ds.n) (hy : y < ds.n) (hu : u < ds.n) (hv : v < ds.n) (h0 : ds.eudist x y = 0) :
    FloatOps.le (ds.dist x y) (ds.dist u v) = true := by
  obtain ⟨a, ha, ha0, -, -, ha2⟩ := dist_error h hx hy
  obtain ⟨b, hb, hb0, -⟩ := dist_error h hu hv
  rw [h0] at ha2
  have : a = 0 := pow_eq_zero_iff (by norm_num) |>.1 (le_antisymm (by simpa using ha2) (sq_nonneg a))
  rw [ha, hb, Dbl.le_fin, this]
  exact hb0

/-- The distances between points of `X` compare as computed like without rounding. -/
theorem DataSet.ClearPairs.compare {ds : DataSet Dbl} (h : ds.Moderate) {X : List Nat} (hc : ds.ClearPairs X) (hX : ∀ x ∈ X, x < ds.n) {x y u v : Nat} (hx : x ∈ X) (hy : y ∈ X) (hu : u ∈ X) (hv : v ∈ X) :
    FloatOps.le (ds.dist x y) (ds.dist u v) = true ↔ ds.eudist x y ≤ ds.eudist u v := by
  have sound : ∀ {x y u v : Nat}, x ∈ X → y ∈ X → u ∈ X → v ∈ X → FloatOps.le (ds.dist x y) (ds.dist u v) = true → ds.eudist x y ≤ ds.eudist u v := by
    intro x y u v hx hy hu hv hle
    have hn := pair_le_near h (hX x hx) (hX y hy) (hX u hu) (hX v hv) hle
    by_cases e1 : x = y
    · rw [e1, eudist_self]; exact eudist_nonneg _ _ _
    by_cases e2 : u = v
    · rw [e2, eudist_self, mul_zero] at hn
      rw [e2, eudist_self]; exact hn
    by_cases e3 : SamePair x y u v
    · rcases e3 with ⟨rfl, rfl⟩ | ⟨rfl, rfl⟩
      · exact le_refl _
      · exact (eudist_comm _ _ _).le
    rcases hc x hx y hy u hu v hv e1 e2 e3 with k | k
    · exact (le_mul_of_one_le_left (eudist_nonneg _ _ _) one_le_nearFactor).trans k.le
    · exact absurd hn (not_le.2 k)
  refine ⟨sound hx hy hu hv, fun hle => ?_⟩
  rcases pair_total h (hX x hx) (hX y hy) (hX u hu) (hX v hv) with k | k
  · exact k
  have he : ds.eudist x y = ds.eudist u v := le_antisymm hle (sound hu hv hx hy k)
  by_cases e1 : x = y
  · exact dist_zero h (hX x hx) (hX y hy) (hX u hu) (hX v hv) (by rw [e1, eudist_self])
  by_cases e2 : u = v
  · exact dist_zero h (hX x hx) (hX y hy) (hX u hu) (hX v hv) (by rw [he, e2, eudist_self])
  by_cases e3 : SamePair x y u v
  · rcases e3 with ⟨rfl, rfl⟩ | ⟨rfl, rfl⟩
    · exact k
    · rw [((C76_laws h.finite).2.1 x y (hX x hx) (hX y hy)).1] at k ⊢
      obtain ⟨a, ha, -⟩ := dist_error h (hX y hy) (hX x hx)
      rw [ha, Dbl.le_fin]
  exfalso
  have l1 : ds.eudist u v ≤ nearFactor * ds.eudist u v := le_mul_of_one_le_left (eudist_nonneg _ _ _) one_le_nearFactor
  rcases hc x hx y hy u hu v hv e1 e2 e3 with k | k
  · rw [he] at k
    exact absurd l1 (not_le.2 k)
  · rw [he] at k
    exact absurd l1 (not_le.2 k)

theorem DataSet.ClearPairs.noTies {ds : DataSet Dbl} (h : ds.Moderate) {X : List Nat} (hc : ds.ClearPairs X) (hX : ∀ x ∈ X, x < ds.n) : NoTiedPairs ds.dist X := by
  intro x hx y hy u hu v hv e1 e2 l1 l2
  by_contra e3
  have n1 := pair_le_near h (hX x hx) (hX y hy) (hX u hu) (hX v hv) l1
  have n2 := pair_le_near h (hX u hu) (hX v hv) (hX x hx) (hX y hy) l2
  rcases hc x hx y hy u hu v hv e1 e2 e3 with k | k
  · exact absurd n2 (not_le.2 k)
  · exact absurd n1 (not_le.2 k)

/-- Clear pairs of farthest points are also those of the computed distances. -/
theorem DataSet.ClearPairs.oneFarthest {ds : DataSet Dbl} (h : ds.Moderate) {X : List Nat} (hc : ds.ClearPairs X) (hX : ∀ x ∈ X, x < ds.n) {S : Nat} (ho : OneFarthestPair S ds.eudist X) :
    OneFarthestPair S ds.dist X := by
  intro Y hn hY hsize a b c d h1 h2
  have key : ∀ {a b : Nat}, MutuallyFarthest ds.dist Y a b → MutuallyFarthest ds.eudist Y a b := fun {a b} k =>
    ⟨k.mem1, k.mem2, fun y hy => realLe.2 ((hc.compare h hX (hY k.mem1) (hY hy) (hY k.mem1) (hY k.mem2)).1 (k.far1 y hy)),
      fun y hy => realLe.2 ((hc.compare h hX (hY k.mem2) (hY hy) (hY k.mem1) (hY k.mem2)).1 (k.far2 y hy))⟩
  exact ho Y hn hY hsize a b c d (key h1) (key h2)

/-- Data with one coordinate. -/
theorem eudist_line {ds : DataSet Dbl} (hd : ds.dims = 1) (x y : Nat) : ds.eudist x y = |ds.realCoord x 0 - ds.realCoord y 0| := by
  have h := eudist_sq ds x y
  rw [hd, Finset.sum_range_one] at h
  rw [← abs_of_nonneg (eudist_nonneg ds x y)]
  exact (sq_eq_sq_iff_abs_eq_abs _ _).1 h

/-- With one coordinate the points that are farthest from each other are the outermost ones. -/
theorem DataSet.ClearPairs.line {ds : DataSet Dbl} {X : List Nat} (hc : ds.ClearPairs X) (hd : ds.dims = 1) {S : Nat} (hS : 2 ≤ S) : OneFarthestPair S ds.eudist X := by
  intro Y hn hY hsize a b c d h1 h2
  have outer : ∀ {a b x y : Nat}, MutuallyFarthest ds.eudist Y a b → x ∈ Y → y ∈ Y → ds.eudist x y ≤ ds.eudist a b := by
    intro a b x y k hx hy
    have l1 := realLe.1 (k.far1 x hx)
    have l2 := realLe.1 (k.far1 y hy)
    have l3 := realLe.1 (k.far2 x hx)
    have l4 := realLe.1 (k.far2 y hy)
    simp only [eudist_line hd] at l1 l2 l3 l4 ⊢
    generalize ds.realCoord a 0 = ra at *
    generalize ds.realCoord b 0 = rb at *
    generalize ds.realCoord x 0 = rx at *
    generalize ds.realCoord y 0 = ry at *
    rw [abs_le] at l1 l2 l3 l4 ⊢
    rcases abs_cases (ra - rb) with ⟨e, -⟩ | ⟨e, -⟩ <;> rw [e] at l1 l2 l3 l4 ⊢ <;> constructor <;> linarith [l1.1, l1.2, l2.1, l2.2, l3.1, l3.2, l4.1, l4.2]
  have clear : ∀ {x y u v : Nat}, x ∈ Y → y ∈ Y → u ∈ Y → v ∈ Y → x ≠ y → u ≠ v → ds.eudist x y = ds.eudist u v → SamePair x y u v := by
    intro x y u v hx hy hu hv e1 e2 he
    by_contra e3
    have l1 : ds.eudist u v ≤ nearFactor * ds.eudist u v := le_mul_of_one_le_left (eudist_nonneg _ _ _) one_le_nearFactor
    rcases hc x (hY hx) y (hY hy) u (hY hu) v (hY hv) e1 e2 e3 with k | k <;> rw [he] at k <;> exact absurd l1 (not_le.2 k)
  have key : ∀ {a b : Nat}, MutuallyFarthest ds.eudist Y a b → a ≠ b := by
    rintro a b k rfl
    obtain ⟨x, hx, y, hy, z, hz, e1, e2, e3⟩ := exists_three hn (by omega)
    have l1 := outer k hx hy
    have l2 := outer k hx hz
    rw [eudist_self] at l1 l2
    rcases clear hx hy hx hz e1 e2 (by linarith [eudist_nonneg ds x y, eudist_nonneg ds x z]) with ⟨-, e⟩ | ⟨e, -⟩
    · exact e3 e
    · exact e2 e
  exact clear h1.mem1 h1.mem2 h2.mem1 h2.mem2 (key h1) (key h2) (le_antisymm (outer h2 h1.mem1 h1.mem2) (outer h1 h2.mem1 h2.mem2))

end Scc
