/-
Inwards updating with one arc per vertex: when a point that is left over points to a seed, no other such point points to the seed's neighbour.
-/
import Verif.Proofs.SeedsBasic
import Mathlib.Algebra.BigOperators.Group.Finset.Basic
import Mathlib.Algebra.Order.BigOperators.Group.Finset
import Mathlib.Algebra.BigOperators.Group.List.Basic
import Mathlib.Algebra.BigOperators.Group.Finset.Sigma
import Mathlib.Algebra.BigOperators.Group.Finset.Piecewise

set_option linter.unusedSimpArgs false
set_option linter.unusedVariables false

namespace Scc

theorem mem_greedySeeds_append {rows : Nat → List Nat} {a b : List Nat} {x : Nat} (h : x ∈ greedySeeds rows (a ++ b)) : x ∈ greedySeeds rows a ∨ x ∈ b := by
  induction b using List.reverseRecOn with
  | nil => left; simpa using h
  | append_singleton b v ih =>
    rw [← List.append_assoc, greedySeeds_snoc] at h
    split at h
    · rcases List.mem_append.1 h with h | h
      · exact (ih h).imp id fun h => List.mem_append_left _ h
      · right; exact List.mem_append_right _ h
    · exact (ih h).imp id fun h => List.mem_append_left _ h

/-- A seed could be added when it was considered. -/
theorem canAdd_of_seed {rows : Nat → List Nat} {pre post : List Nat} {s : Nat} (hnd : (pre ++ s :: post).Nodup) (hs : s ∈ greedySeeds rows (pre ++ s :: post)) :
    CanAdd rows (greedySeeds rows pre) s := by
  by_contra hc
  obtain ⟨h1, h2, h3⟩ := List.nodup_append.1 hnd
  have e : pre ++ s :: post = (pre ++ [s]) ++ post := by simp
  rw [e] at hs
  rcases mem_greedySeeds_append hs with h | h
  · rw [greedySeeds_snoc, if_neg hc] at h
    exact h3 s ((greedySeeds_sublist rows pre).subset h) s (by simp) rfl
  · exact (List.nodup_cons.1 h2).1 h

theorem inwards_pair {rows : Nat → List Nat} {n : Nat} {order : List Nat} (hperm : order.Perm (List.range n)) (hone : ∀ v, v < n → ∃ x, rows v = [x]) (hdyn : DynamicByArcs rows order)
    {s t u v : Nat} (hs : s ∈ greedySeeds rows order) (hst : rows s = [t])
    (hv : v < n) (hvc : ¬ Captured rows (greedySeeds rows order) v) (hvs : rows v = [s])
    (hu : u < n) (huc : ¬ Captured rows (greedySeeds rows order) u) (hut : rows u = [t]) : False := by
  have hnd : order.Nodup := hperm.nodup_iff.2 List.nodup_range
  have hso : s ∈ order := (greedySeeds_sublist rows order).subset hs
  obtain ⟨pre, post, hord⟩ := List.append_of_mem hso
  subst hord
  have hadd := canAdd_of_seed hnd hs
  set S := greedySeeds rows pre with hS
  have hmono : ∀ x, Captured rows S x → Captured rows (greedySeeds rows (pre ++ s :: post)) x := by
    rintro x ⟨s', h1, h2⟩
    exact ⟨s', greedySeeds_mono s' h1, h2⟩
  have hsfree : ¬ Captured rows S s := by
    rintro ⟨s', h1, h2⟩
    exact hadd.2 s' h1 s (by simp [closedNbr]) h2
  have htfree : ¬ Captured rows S t := by
    rintro ⟨s', h1, h2⟩
    exact hadd.2 s' h1 t (by simp [closedNbr, hst]) h2
  -- a vertex that is never captured and points to `s` or `t` comes after `s`
  have hafter : ∀ x y, x < n → ¬ Captured rows (greedySeeds rows (pre ++ s :: post)) x → rows x = [y] → ¬ Captured rows S y → x ∈ post := by
    intro x y hx hxc hxy hy
    have hxo : x ∈ pre ++ s :: post := hperm.mem_iff.2 (List.mem_range.2 hx)
    rcases List.mem_append.1 hxo with h | h
    · exfalso
      obtain ⟨s', h1, z, h2, h3⟩ := greedySeeds_maximal (rows := rows) x h (by rw [hxy]; simp)
      have : z = x ∨ z = y := by simpa [closedNbr, hxy] using h2
      rcases this with rfl | rfl
      · exact hxc (hmono z ⟨s', h1, h3⟩)
      · exact hy ⟨s', h1, h3⟩
    · rcases List.mem_cons.1 h with rfl | h
      · exact absurd ⟨x, hs, by simp [closedNbr]⟩ hxc
      · exact h
  have hvpost := hafter v s hv hvc hvs hsfree
  have hupost := hafter u t hu huc hut htfree
  set W := (s :: post).filter (fun x => decide (¬ Captured rows S x)) with hW
  have hWnd : W.Nodup := (List.nodup_append.1 hnd).2.1.filter _
  have hWn : ∀ x ∈ W, x < n := fun x hx => List.mem_range.1 (hperm.mem_iff.1 (List.mem_append_right _ (List.mem_filter.1 hx).1))
  have hsW : s ∈ W := List.mem_filter.2 ⟨by simp, by simpa using hsfree⟩
  have hvW : v ∈ W := List.mem_filter.2 ⟨by simp [hvpost], by simpa using fun h => hvc (hmono v h)⟩
  have huW : u ∈ W := List.mem_filter.2 ⟨by simp [hupost], by simpa using fun h => huc (hmono u h)⟩
  have hmin : ∀ x ∈ W, arcsFrom rows W s ≤ arcsFrom rows W x := by
    intro x hx
    obtain ⟨h1, h2⟩ := List.mem_filter.1 hx
    rcases List.mem_cons.1 h1 with rfl | h1
    · exact le_refl _
    · refine hdyn pre s post rfl hsfree (by rw [hst]; simp) x h1 (by simpa using h2) ?_
      obtain ⟨y, hy⟩ := hone x (hWn x hx)
      rw [hy]; simp
  -- counts as finite sums
  have harc : ∀ x, arcsFrom rows W x = ∑ y ∈ W.toFinset, (rows y).count x := by
    intro x
    unfold arcsFrom
    rw [List.sum_toFinset _ hWnd]
  have hpos : 1 ≤ arcsFrom rows W s := by
    rw [harc]
    have := Finset.single_le_sum (f := fun y => (rows y).count s) (fun _ _ => Nat.zero_le _) (List.mem_toFinset.2 hvW)
    simp only [hvs, List.count_singleton_self] at this
    exact this
  have hge : ∀ x ∈ W.toFinset, 1 ≤ arcsFrom rows W x := fun x hx => hpos.trans (hmin x (List.mem_toFinset.1 hx))
  have hinner : ∀ y ∈ W.toFinset, ∑ x ∈ W.toFinset, (rows y).count x ≤ 1 := by
    intro y hy
    obtain ⟨z, hz⟩ := hone y (hWn y (List.mem_toFinset.1 hy))
    rw [hz]
    have : ∀ x ∈ W.toFinset, List.count x [z] = if z = x then 1 else 0 := fun x _ => by rw [List.count_singleton]; simp
    rw [Finset.sum_congr rfl this, Finset.sum_ite_eq]
    split <;> omega
  have hswap : ∑ x ∈ W.toFinset, arcsFrom rows W x = ∑ y ∈ W.toFinset, ∑ x ∈ W.toFinset, (rows y).count x := by
    rw [Finset.sum_congr rfl fun x _ => harc x, Finset.sum_comm]
  by_cases htW : t ∈ W
  · have h2 : 2 ≤ arcsFrom rows W t := by
      rw [harc]
      have hne : s ≠ u := by rintro rfl; exact huc ⟨s, hs, by simp [closedNbr]⟩
      have hsub : ({s, u} : Finset Nat) ⊆ W.toFinset := by
        intro x hx
        rcases Finset.mem_insert.1 hx with rfl | hx
        · exact List.mem_toFinset.2 hsW
        · rw [Finset.mem_singleton.1 hx]; exact List.mem_toFinset.2 huW
      have := Finset.sum_le_sum_of_subset (f := fun y => (rows y).count t) hsub
      rw [Finset.sum_pair hne, hst, hut, List.count_singleton_self] at this
      exact this
    have h3 : ∑ x ∈ W.toFinset, 1 < ∑ x ∈ W.toFinset, arcsFrom rows W x :=
      Finset.sum_lt_sum hge ⟨t, List.mem_toFinset.2 htW, h2⟩
    have h4 := Finset.sum_le_sum hinner
    omega
  · have h3 : ∑ y ∈ W.toFinset, ∑ x ∈ W.toFinset, (rows y).count x < ∑ y ∈ W.toFinset, 1 := by
      refine Finset.sum_lt_sum hinner ⟨s, List.mem_toFinset.2 hsW, ?_⟩
      rw [hst]
      have : ∀ x ∈ W.toFinset, List.count x [t] = 0 := fun x hx => by
        rw [List.count_eq_zero, List.mem_singleton]
        rintro rfl
        exact htW (List.mem_toFinset.1 hx)
      rw [Finset.sum_congr rfl this]; simp
    have h4 := Finset.sum_le_sum hge
    omega

end Scc
