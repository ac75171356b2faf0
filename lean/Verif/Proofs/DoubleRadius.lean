/-
Radii in `double`: comparison with a radius, and the radius estimated from the seeds.
-/
import Verif.Proofs.StatsDouble
import Verif.Spec.Radius

set_option linter.unusedSimpArgs false

namespace Scc

/-- The square of a radius. -/
theorem radius_sq {r : ℝ} (hm : Mid 510 r) : FloatOps.mul (Dbl.fin r) (.fin r) = .fin (nearest53 (r * r)) ∧ (1 - roundoff) * r ^ 2 ≤ nearest53 (r * r) ∧ nearest53 (r * r) ≤ (1 + roundoff) * r ^ 2 := by
  have hm2 : Mid 1020 (r * r) := (hm.mul hm).mono (by norm_num)
  have h := pos_rel (u := roundoff) (mul_self_nonneg r) (hm2.error (by norm_num))
  rw [pow_two]
  exact ⟨hm2.fin (by norm_num) (by norm_num), h.1, h.2⟩

theorem le_of_not_lt_fin {a b : ℝ} (h : FloatOps.lt (Dbl.fin a) (.fin b) = false) : b ≤ a := by
  by_contra hlt
  push Not at hlt
  rw [dbl_lt_fin.2 hlt] at h
  cases h

/-- A point within a radius as computed is within the radius, up to a factor. -/
theorem within_le {ds : DataSet Dbl} (h : ds.Moderate) {q x : Nat} (hq : q < ds.n) (hx : x < ds.n) {r : ℝ} (hr : 0 ≤ r) (hm : Mid 510 r) (hw : ds.Within q x (.fin r)) : ds.eudist q x ≤ nearFactor * r := by
  have hu := ulp_pos
  have hu' := ulp_lt
  obtain ⟨a, ha, -, -, -, ha1, ha2⟩ := sqd_error h hq hx
  obtain ⟨h1, h2, h3⟩ := radius_sq hm
  unfold DataSet.Within at hw
  rw [h1, ha] at hw
  have h4 := le_of_not_lt_fin hw
  refine le_of_sq_error (m := ds.dims + 3) hr (by have := h.dims; omega) (ha1.trans (h4.trans (h3.trans ?_)))
  refine mul_le_mul_of_nonneg_right ?_ (sq_nonneg r)
  exact le_self_pow₀ (by linarith) (by omega)

/-- A point that is within the radius by a margin is found to be within the radius. -/
theorem within_of_le {ds : DataSet Dbl} (h : ds.Moderate) {q x : Nat} (hq : q < ds.n) (hx : x < ds.n) {r : ℝ} (hm : Mid 510 r) (hw : nearFactor * ds.eudist q x ≤ r) : ds.Within q x (.fin r) := by
  have hu := ulp_pos
  have hu' := ulp_lt
  have he := eudist_nonneg ds q x
  obtain ⟨a, ha, -, -, -, ha1, ha2⟩ := sqd_error h hq hx
  obtain ⟨h1, h2, h3⟩ := radius_sq hm
  unfold DataSet.Within
  rw [h1, ha]
  have h4 : a ≤ nearest53 (r * r) := by
    refine ha2.trans (le_trans ?_ h2)
    have h5 : (nearFactor * ds.eudist q x) ^ 2 ≤ r ^ 2 := pow_le_pow_left₀ (mul_nonneg (zero_le_one.trans nearFactor_one) he) hw 2
    calc (1 + roundoff) ^ (ds.dims + 3) * ds.eudist q x ^ 2 ≤ nearFactor ^ 2 * (1 - roundoff) ^ (ds.dims + 3) * ds.eudist q x ^ 2 :=
          mul_le_mul_of_nonneg_right (slack_le (by have := h.dims; omega)) (sq_nonneg _)
      _ = (1 - roundoff) ^ (ds.dims + 3) * (nearFactor * ds.eudist q x) ^ 2 := by ring
      _ ≤ (1 - roundoff) * (nearFactor * ds.eudist q x) ^ 2 := by
        refine mul_le_mul_of_nonneg_right ?_ (sq_nonneg _)
        exact pow_le_of_le_one (by linarith) (by linarith) (by omega)
      _ ≤ (1 - roundoff) * r ^ 2 := mul_le_mul_of_nonneg_left h5 (by linarith)
  by_contra hlt
  rw [Bool.not_eq_false, dbl_lt_fin] at hlt
  exact absurd h4 (not_le.2 hlt)

/-! ### The estimated radius -/

theorem foldl_map_add {F : Type} [FloatOps F] (f : Nat → F) (l : List Nat) : ∀ s, l.foldl (fun acc x => FloatOps.add acc (f x)) s = (l.map f).foldl FloatOps.add s := by
  intro s; rw [List.foldl_map]

/-- A mean of computed values. -/
theorem mean_rounded {K l : Nat} {f : Nat → ℝ} {g : Nat → Dbl} {xs : List Nat} (hne : xs ≠ []) (h : ∀ x ∈ xs, Rounded K (f x) (g x)) (hm : ∀ x ∈ xs, Mid l (f x)) (hl : l ≤ 700) (hlen : xs.length ≤ 2 ^ 50)
    (hK : K ≤ 2 ^ 51) :
    Rounded (K + xs.length + 3) (FloatOps.div (xs.foldl (fun acc x => FloatOps.add acc (f x)) FloatOps.zero) (FloatOps.ofNat xs.length))
      (FloatOps.div (xs.foldl (fun acc x => FloatOps.add acc (g x)) FloatOps.zero) (FloatOps.ofNat xs.length)) ∧
    Mid (l + 100) (FloatOps.div (xs.foldl (fun acc x => FloatOps.add acc (f x)) FloatOps.zero) (FloatOps.ofNat xs.length) : ℝ) := by
  have h1 : List.Forall₂ (Rounded K) (xs.map f) (xs.map g) := by
    rw [List.forall₂_map_left_iff, List.forall₂_map_right_iff, List.forall₂_same]
    exact h
  have hmid : Mid (l + 50 : ℤ) (xs.map f).sum := mid_sum (k := l) (l := 50) (fun y hy => by
    obtain ⟨x, hx, rfl⟩ := List.mem_map.1 hy
    exact ⟨(h x hx).nonneg, hm x hx⟩) (by rw [List.length_map]; exact hlen)
  have h0 : (0 : ℝ) < xs.length := by exact_mod_cast List.length_pos_iff.2 hne
  have hsum : xs.foldl (fun acc x => FloatOps.add acc (f x)) (FloatOps.zero : ℝ) = (xs.map f).sum := by
    rw [foldl_map_add, real_foldl]
    exact zero_add _
  have hdiv : Mid (l + 50 + 50 : ℤ) ((xs.map f).sum / (xs.length : ℝ)) := hmid.div (mid_natCast (l := 50) hlen)
  have h2 := Rounded.foldl h1 K 0 FloatOps.zero le_rfl (by rw [List.length_map]; omega) (rounded_zero K)
    (by rw [zero_add]; exact ((le_abs_self _).trans hmid.le).trans (zpow_le_zpow_right₀ (by norm_num) (by omega)))
  rw [List.length_map, ← foldl_map_add, ← foldl_map_add, show (0 : ℝ) = (FloatOps.zero : ℝ) from rfl, hsum] at h2
  rw [hsum]
  refine ⟨(h2.div (L := 1) (by omega) (rounded_ofNat (hlen.trans (by norm_num))) h0 (hdiv.mono (by omega))).weaken (by omega), hdiv.mono (by omega)⟩

/-- The estimated radius is right up to rounding. -/
theorem estimate_rounded {ds : DataSet Dbl} (hm : ds.Moderate) {N : Nat → List Nat} {seeds : List Nat} (hn : ds.n ≤ 2 ^ 49) (hne : seeds ≠ []) (hnd : seeds.Nodup)
    (hs : ∀ s ∈ seeds, s < ds.n ∧ N s ≠ [] ∧ (N s).Nodup ∧ ∀ x ∈ N s, x < ds.n) :
    Rounded (ds.dims + 2 * ds.n + 11) (seedEstimate ds.eudist N seeds) (seedEstimate ds.dist N seeds) := by
  have hd := hm.dims
  have hlen : ∀ {l : List Nat}, l.Nodup → (∀ x ∈ l, x < ds.n) → l.length ≤ ds.n := fun hl h => by
    have := (List.subperm_of_subset hl (l₂ := List.range ds.n) fun x hx => List.mem_range.2 (h x hx)).length_le
    rwa [List.length_range] at this
  have hmean : ∀ s ∈ seeds, Rounded (ds.dims + ds.n + 8) (meanDist ds.eudist N s) (meanDist ds.dist N s) ∧ Mid (610 : Nat) (meanDist ds.eudist N s) := by
    intro s hs'
    obtain ⟨h1, h2, h3, h4⟩ := hs s hs'
    have h5 := hlen h3 h4
    have h6 := mean_rounded (l := 510) h2 (fun x hx => dist_rounded hm h1 (h4 x hx)) (fun x hx => eudist_mid hm h1 (h4 x hx)) (by norm_num) (by omega) (by omega)
    exact ⟨h6.1.weaken (by omega), h6.2.mono (by norm_num)⟩
  have hss : sampledSeeds seeds ≠ [] ∧ ∀ s ∈ sampledSeeds seeds, s ∈ seeds := ⟨ne_nil hne, mem_of⟩
  have hl : (sampledSeeds seeds).length ≤ ds.n := by
    refine le_trans ?_ (hlen hnd fun s hs' => (hs s hs').1)
    unfold sampledSeeds
    split
    · exact le_rfl
    · refine (List.length_filterMap_le _ _).trans ((List.length_filter_le _ _).trans (by rw [List.length_range]))
  have h1 := mean_rounded (l := 610) hss.1 (fun s hs' => (hmean s (hss.2 s hs')).1) (fun s hs' => (hmean s (hss.2 s hs')).2) (by norm_num) (by omega) (by omega)
  exact h1.1.weaken (by omega)
where
  ne_nil {seeds : List Nat} (h : seeds ≠ []) : sampledSeeds seeds ≠ [] := by
    unfold sampledSeeds
    split
    · exact h
    · have h0 : 0 < seeds.length := List.length_pos_iff.2 h
      refine List.ne_nil_of_mem (a := seeds[0]) (List.mem_filterMap.2 ⟨0, ?_, List.getElem?_eq_getElem h0⟩)
      simp [h0]
  mem_of {seeds : List Nat} : ∀ s ∈ sampledSeeds seeds, s ∈ seeds := by
    intro s hs
    unfold sampledSeeds at hs
    split at hs
    · exact hs
    · obtain ⟨i, -, hi⟩ := List.mem_filterMap.1 hs
      exact List.mem_of_getElem? hi

end Scc
