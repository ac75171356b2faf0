/-
Only comparisons of distances matter: estimated radii, and data sets that are similar in exact arithmetic.
-/
import Verif.Proofs.CompareHi
import Verif.Spec.Exact
import Mathlib.Tactic.Ring

namespace Scc

variable {F G : Type} [FloatOps F] [FloatOps G]

theorem sim_foldBM {α β σ γ δ : Type} {R : α → β → Prop} {Q : γ → δ → Prop} {f : α → σ → M (Ctl α γ)} {g : β → σ → M (Ctl β δ)} (l : List σ)
    (hf : ∀ a b i, R a b → Sim (CtlPair R Q) (f a i) (g b i)) {a : α} {b : β} (h : R a b) : Sim (CtlPair R Q) (foldBM f a l) (foldBM g b l) := by
  induction l generalizing a b with
  | nil => exact sim_pure (.next h)
  | cons i l ih =>
    unfold foldBM
    refine sim_bind (hf a b i h) fun c d h => ?_
    cases h with
    | next h => exact ih h
    | stop h => exact sim_pure (.stop h)

/-- A relation between numbers that is kept by the operations with which a radius is estimated. -/
structure KeepsMeans (ds : DataSet F) (ds' : DataSet G) (T : F → G → Prop) : Prop where
  zero : T FloatOps.zero FloatOps.zero
  add : ∀ {x y x' y'}, T x x' → T y y' → T (FloatOps.add x y) (FloatOps.add x' y')
  div : ∀ {x x'} k, T x x' → T (FloatOps.div x (FloatOps.ofNat k)) (FloatOps.div x' (FloatOps.ofNat k))
  dist : ∀ p q, p < ds.n → q < ds.n → T (ds.dist p q) (ds'.dist p q)
  est : ∀ {x x'}, T x x' → EstAlike ds ds' x x'

theorem sameEstimates_of {ds : DataSet F} {ds' : DataSet G} (h : SameNear ds ds') {T : F → G → Prop} (hT : KeepsMeans ds ds' T) (S : Nat) : SameEstimates ds ds' S := by
  intro sr nng
  unfold estimateAvg
  refine sim_bind (sim_alloc (R := T) (bufAlike_raw S) true) fun b b' hb => ?_
  cases hb with
  | none => exact sim_fail _ _ _ _
  | some hb =>
    rename_i b b'
    dsimp only
    rw [← hb.id]
    refine sim_bind (R := CtlPair (fun x y => x.1 = y.1 ∧ T x.2.1 y.2.1 ∧ BufAlike T x.2.2 y.2.2) Eq) (sim_foldBM _ ?_ ⟨rfl, hT.zero, hb.buf⟩) fun r r' hr => ?_
    · rintro ⟨k, s, d⟩ ⟨k', s', d'⟩ i ⟨h1, h2, h3⟩
      dsimp only at h1 h2 h3
      subst h1
      unfold estimateStep
      refine sim_next fun ⟨seed, lo, num⟩ => sim_next fun _ => sim_bind (distRows_sim h hT.dist _ _ _ _ h3) fun e e' he => ?_
      cases he with
      | none => exact sim_next fun _ => sim_next fun e => sim_pure (.stop rfl)
      | some he =>
        refine sim_bind (R := fun x y => T x.1 y.1 ∧ x.2 = y.2) (sim_useK _ ?_) fun ⟨t, c⟩ ⟨t', c'⟩ ⟨g1, g2⟩ => ?_
        · unfold sumDists
          refine rel_forLt ⟨hT.zero, rfl⟩ fun j ⟨t, c⟩ ⟨t', c'⟩ ⟨g1, g2⟩ => ?_
          dsimp only at g1 g2
          subst g2
          refine rel_next fun x => rel_ite Iff.rfl (fun _ => rel_bind (he.get j) fun y y' hy => .some ⟨hT.add g1 hy, rfl⟩) fun _ => .some ⟨g1, rfl⟩
        · dsimp only at g1 g2
          subst g2
          exact sim_pure (.next ⟨rfl, hT.add h2 (hT.div c g1), he⟩)
    · cases hr with
      | stop hr => subst hr; exact sim_pure (.error _)
      | next hr =>
        rename_i r r'
        obtain ⟨k, s, d⟩ := r
        obtain ⟨k', s', d'⟩ := r'
        obtain ⟨h1, h2, h3⟩ := hr
        dsimp only at h1 h2 h3
        subst h1
        exact sim_next fun _ => sim_pure (.ok (hT.est (hT.div k h2)))

/-! ### Exact arithmetic -/

theorem real_lt {x y : ℝ} : FloatOps.lt x y = true ↔ x < y := decide_eq_true_iff

theorem real_le {x y : ℝ} : FloatOps.le x y = true ↔ x ≤ y := decide_eq_true_iff

theorem real_sqd_nonneg (ds : DataSet ℝ) (p q : Nat) : 0 ≤ ds.sqd p q := by
  unfold DataSet.sqd
  have : ∀ (l : List Nat) (a : ℝ), 0 ≤ a → 0 ≤ l.foldl (fun acc t => FloatOps.add acc (FloatOps.mul (FloatOps.sub (ds.coord p t) (ds.coord q t)) (FloatOps.sub (ds.coord p t) (ds.coord q t)))) a := by
    intro l
    induction l with
    | nil => intro a ha; exact ha
    | cons t l ih =>
      intro a ha
      rw [List.foldl_cons]
      exact ih _ (add_nonneg ha (mul_self_nonneg (ds.coord p t - ds.coord q t)))
  exact this _ _ (le_refl _)

theorem real_dist_nonneg (ds : DataSet ℝ) (p q : Nat) : 0 ≤ ds.dist p q := Real.sqrt_nonneg _

theorem real_dist_sq (ds : DataSet ℝ) (p q : Nat) : ds.dist p q * ds.dist p q = ds.sqd p q := Real.mul_self_sqrt (real_sqd_nonneg ds p q)

theorem real_cmp {x y x' y' : ℝ} (h : x < y ↔ x' < y') (h2 : x ≤ y ↔ x' ≤ y') : SameCmp x y x' y' := by
  constructor
  · rw [Bool.eq_iff_iff, real_lt, real_lt]; exact h
  · rw [Bool.eq_iff_iff, real_le, real_le]; exact h2

section
variable {c : ℝ} {ds ds' : DataSet ℝ} (hc : 0 < c) (h : Similar c ds ds')
include hc h

omit hc in
theorem similar_sqd {p q : Nat} (hp : p < ds.n) (hq : q < ds.n) : ds'.sqd p q = c * c * ds.sqd p q := by
  rw [← real_dist_sq, ← real_dist_sq, h.scale p q hp hq]
  ring

theorem similar_far : SameFar ds ds' where
  exact := h.exact
  exact' := h.exact'
  num := h.num
  near q x y hq hx hy := by
    have hcc := mul_pos hc hc
    rw [similar_sqd h hq hx, similar_sqd h hq hy]
    exact real_cmp (mul_lt_mul_iff_right₀ hcc).symm (mul_le_mul_iff_right₀ hcc).symm
  positive p q hp hq := by
    constructor <;> rw [real_lt] <;> exact lt_of_lt_of_le neg_one_lt_zero (real_sqd_nonneg _ _ _)
  far p q r s hp hq hr hs := by
    rw [h.scale p q hp hq, h.scale r s hr hs]
    exact real_cmp (mul_lt_mul_iff_right₀ hc).symm (mul_le_mul_iff_right₀ hc).symm
  start p q hp hq := by
    have h1 : FloatOps.lt FloatOps.negOne (ds.dist p q) = true := real_lt.2 (lt_of_lt_of_le neg_one_lt_zero (real_dist_nonneg _ _ _))
    have h2 : FloatOps.lt FloatOps.negOne (ds'.dist p q) = true := real_lt.2 (lt_of_lt_of_le neg_one_lt_zero (real_dist_nonneg _ _ _))
    rw [h1, h2]

theorem similar_radius (r : ℝ) : SameRadius ds ds' r (c * r) where
  sign := by
    rw [Bool.eq_iff_iff, real_le, real_le]
    exact (mul_nonpos_iff_pos_imp_nonpos.trans ⟨fun h => h.1 hc, fun h => ⟨fun _ => h, fun _ => hc.le⟩⟩).symm
  within q x hq hx := by
    rw [Bool.eq_iff_iff, real_lt, real_lt, similar_sqd h hq hx]
    show r * r < _ ↔ c * r * (c * r) < _
    rw [show c * r * (c * r) = c * c * (r * r) by ring]
    exact (mul_lt_mul_iff_right₀ (mul_pos hc hc)).symm

theorem similar_options (o : Options ℝ) : SameOptions ds ds' o (o.scaled c) :=
  ⟨rfl, rfl, rfl, rfl, rfl, rfl, rfl, rfl, rfl, rfl, rfl, rfl, rfl, rfl, rfl, fun _ => similar_radius hc h _, fun _ => similar_radius hc h _, fun _ => similar_radius hc h _⟩

theorem similar_means : KeepsMeans ds ds' fun x y => y = c * x where
  zero := (mul_zero c).symm
  add {x y x' y'} h1 h2 := by
    show x' + y' = c * (x + y)
    rw [h1, h2]; ring
  div {x x'} k h1 := by
    show x' / (k : ℝ) = c * (x / (k : ℝ))
    rw [h1]; ring
  dist p q hp hq := h.scale p q hp hq
  est {x x'} h1 := by
    subst h1
    refine ⟨?_, fun _ => similar_radius hc h x⟩
    rw [Bool.eq_iff_iff, real_lt, real_lt]
    exact (mul_pos_iff_of_pos_left hc).symm

end

/-- Moving and scaling by coordinates. -/
theorem similar_of_coord {c : ℝ} {ds ds' : DataSet ℝ} (he : ds.Exact) (he' : ds'.Exact) (hn : ds.n = ds'.n) (hd : ds.dims = ds'.dims) (b : Nat → ℝ)
    (h : ∀ i t, i < ds.n → t < ds.dims → ds'.coord i t = c * ds.coord i t + b t) : Similar |c| ds ds' := by
  refine ⟨he, he', hn, fun p q hp hq => ?_⟩
  have key : ds'.sqd p q = c ^ 2 * ds.sqd p q := by
    unfold DataSet.sqd
    rw [← hd]
    have : ∀ (l : List Nat) (a : ℝ), (∀ t ∈ l, t < ds.dims) →
        l.foldl (fun acc t => FloatOps.add acc (FloatOps.mul (FloatOps.sub (ds'.coord p t) (ds'.coord q t)) (FloatOps.sub (ds'.coord p t) (ds'.coord q t)))) (c ^ 2 * a) =
        c ^ 2 * l.foldl (fun acc t => FloatOps.add acc (FloatOps.mul (FloatOps.sub (ds.coord p t) (ds.coord q t)) (FloatOps.sub (ds.coord p t) (ds.coord q t)))) a := by
      intro l
      induction l with
      | nil => intro a _; rfl
      | cons t l ih =>
        intro a hl
        rw [List.foldl_cons, List.foldl_cons, ← ih _ fun t ht => hl t (List.mem_cons_of_mem _ ht)]
        congr 1
        rw [h p t hp (hl t List.mem_cons_self), h q t hq (hl t List.mem_cons_self)]
        show c ^ 2 * a + (c * ds.coord p t + b t - (c * ds.coord q t + b t)) * (c * ds.coord p t + b t - (c * ds.coord q t + b t)) =
          c ^ 2 * (a + (ds.coord p t - ds.coord q t) * (ds.coord p t - ds.coord q t))
        ring
    have := this (List.range ds.dims) 0 fun t ht => List.mem_range.1 ht
    rw [mul_zero] at this
    exact this
  show Real.sqrt (ds'.sqd p q) = |c| * Real.sqrt (ds.sqd p q)
  rw [key, Real.sqrt_mul (sq_nonneg c), Real.sqrt_sq_eq_abs]

end Scc
