/-
The statistics of a refined clustering (for C86).
-/
import Verif.Spec.Improve
import Verif.Props.Consistent
import Verif.Props.Hierarchical
import Mathlib.Algebra.Order.BigOperators.Group.List

namespace Scc

variable {F : Type} [FloatOps F] {cfg : Cfg} {S n k k' : Nat} {old new : Buf Int}

theorem HiRefines.same (h : HiRefines cfg S n k old k' new) {i j : Nat} (hs : SameCluster new n k' i j) : SameCluster old n k i j := by
  obtain ⟨hi, hj, c, hc, g1, g2⟩ := hs
  exact ⟨hi, hj, h.finer i j c hi hj hc g1 g2⟩

/-- A new cluster is contained in an old one. -/
theorem HiRefines.inside (h : HiRefines cfg S n k old k' new) {c' : Nat} (hc : c' < k') : ∃ c, c < k ∧ ∀ v ∈ members new n c', v ∈ members old n c := by
  obtain ⟨u, hu⟩ := List.exists_mem_of_length_pos (h.sizes c' hc).1
  rw [mem_members] at hu
  obtain ⟨c, hck, g, -⟩ := h.finer u u c' hu.1 hu.1 hc hu.2 hu.2
  refine ⟨c, hck, fun v hv => ?_⟩
  rw [mem_members] at hv ⊢
  obtain ⟨c1, -, g1, g2⟩ := h.finer u v c' hu.1 hv.1 hc hu.2 hv.2
  rw [g] at g1
  cases g1
  exact ⟨hv.1, g2⟩

theorem members_subset_length {b b' : Buf Int} {n c c' : Nat} (h : ∀ v ∈ members b' n c', v ∈ members b n c) : (members b' n c').length ≤ (members b n c).length := by
  have hnd : (members b' n c').Nodup := List.Nodup.filter _ List.nodup_range
  exact (hnd.subperm h).length_le

theorem HiRefines.all (h : HiRefines cfg S n k old k' new) : clustersFrom new n k' 1 = List.range k' := by
  unfold clustersFrom
  rw [List.filter_eq_self]
  intro c hc
  exact decide_eq_true (h.sizes c (List.mem_range.1 hc)).1

/-- No cluster is lost. -/
theorem HiRefines.count (hcfg : cfg.Valid) (h : HiRefines cfg S n k old k' new) (hk : k ≤ cfg.clabelMax) (hv : ValidLabels cfg old n k) : (clustersFrom old n k 1).length ≤ k' := by
  have hex : ∀ c, c ∈ clustersFrom old n k 1 → ∃ c', c' < k' ∧ ∃ v, v < n ∧ old.get v = some ((c : Nat) : Int) ∧ new.get v = some ((c' : Nat) : Int) := by
    intro c hc
    rw [mem_clustersFrom] at hc
    obtain ⟨v, hv⟩ := List.exists_mem_of_length_pos hc.2
    rw [mem_members] at hv
    rcases h.valid v hv.1 with h1 | ⟨c', hc', h1⟩
    · have h2 := (h.unassigned v hv.1).1 h1
      unfold Unassigned at h2
      rw [hv.2] at h2
      have h3 : ((c : Nat) : Int) = cfg.na := Option.some.inj h2
      exact absurd h3 (na_ne hcfg hk hc.1)
    · exact ⟨c', hc', v, hv.1, hv.2, h1⟩
  choose! f hf using hex
  have hnd : ((clustersFrom old n k 1).map f).Nodup := by
    refine List.Nodup.map_on ?_ (List.Nodup.filter _ List.nodup_range)
    intro a ha b hb hab
    obtain ⟨h1, u, hu, gu, gu'⟩ := hf a ha
    obtain ⟨-, v, hv, gv, gv'⟩ := hf b hb
    rw [← hab] at gv'
    obtain ⟨c, -, e1, e2⟩ := h.finer u v (f a) hu hv h1 gu' gv'
    rw [gu] at e1
    rw [gv] at e2
    have e3 := Option.some.inj e1
    have e4 := Option.some.inj e2
    omega
  have hsub : ((clustersFrom old n k 1).map f) ⊆ List.range k' := by
    intro x hx
    obtain ⟨c, hc, rfl⟩ := List.mem_map.1 hx
    exact List.mem_range.2 (hf c hc).1
  have := (hnd.subperm hsub).length_le
  rwa [List.length_map, List.length_range] at this

theorem improved {dist : Nat → Nat → F} (hcfg : cfg.Valid) (hS : 2 ≤ S) (hk : k ≤ cfg.clabelMax) (hv : ValidLabels cfg old n k) (hk' : 0 < k') (h : HiRefines cfg S n k old k' new) (hfd : FiniteDists n dist) {s s' : Stats F}
    (h1 : StatsAre cfg dist n k old s) (h2 : StatsAre cfg dist n k' new s') (e1 : ExtremesAre dist n k old s) (e2 : ExtremesAre dist n k' new s') : StatsImproved S s s' := by
  have hall := h.all
  have hne : clustersFrom new n k' 1 ≠ [] := by
    rw [hall]
    intro e
    have := congrArg List.length e
    simp at this
    omega
  have hmax : s'.maxSize ≤ s.maxSize ∧ s'.maxSize < 2 * S := by
    obtain ⟨c', hc', e⟩ := h2.maxSize.2 hne
    rw [mem_clustersFrom] at hc'
    obtain ⟨c, hc, hin⟩ := h.inside hc'.1
    have hle := members_subset_length hin
    rw [e]
    refine ⟨hle.trans (h1.maxSize.1 c (mem_clustersFrom.2 ⟨hc, hc'.2.trans hle⟩)), (h.sizes c' hc'.1).2.1⟩
  have hzero : FloatOps.le FloatOps.zero s.maxDist = true := by
    by_cases hp : ∃ i j, i ≠ j ∧ SameCluster old n k i j
    · obtain ⟨i, j, hij, hs⟩ := hp
      exact hfd.order.trans _ _ _ (hfd.nonneg i j hs.1 hs.2.1) (e1.le_max i j hij hs)
    · rw [e1.max_zero hp]
      exact hfd.zeroNum
  refine ⟨by rw [h1.points, h2.points], ?_, ⟨?_, ?_⟩, hmax, ?_, ?_⟩
  · rw [h1.assigned, h2.assigned]
    congr 1
    refine List.filter_congr fun v hv => decide_eq_decide.2 (not_congr (h.unassigned v (List.mem_range.1 hv)))
  · rw [h1.populated, h2.populated, hall, List.length_range]
    exact h.count hcfg hk hv
  · rw [h2.populated, h2.clusters, hall, List.length_range]
  · by_cases hp : ∃ i j, i ≠ j ∧ SameCluster new n k' i j
    · obtain ⟨i, j, hij, hs, hle⟩ := e2.max_is hp
      exact hfd.order.trans _ _ _ hle (e1.le_max i j hij (h.same hs))
    · rw [e2.max_zero hp]
      exact hzero
  · by_cases h1' : ∃ c, c < k' ∧ (members new n c).length = 1
    · rw [e2.alone h1']
      obtain ⟨c', hc', hl⟩ := h1'
      rcases (h.sizes c' hc').2.2 with h3 | ⟨c, hc, h3⟩
      · omega
      · rw [e1.alone ⟨c, hc, by rw [← h3]; exact hl⟩]
        exact hfd.zeroNum
    · have hno : ∀ c, c < k' → (members new n c).length ≠ 1 := fun c hc e => h1' ⟨c, hc, e⟩
      have hp : ∃ i j, i ≠ j ∧ SameCluster new n k' i j := by
        have h3 := (h.sizes 0 hk').1
        have h4 := hno 0 hk'
        have hnd : (members new n 0).Nodup := List.Nodup.filter _ List.nodup_range
        match hm : members new n 0, h3, h4 with
        | [], h3, _ => exact absurd h3 (by simp)
        | [_], _, h4 => exact absurd rfl h4
        | a :: b :: l, _, _ =>
          rw [hm] at hnd
          have ha : a ∈ members new n 0 := by rw [hm]; simp
          have hb : b ∈ members new n 0 := by rw [hm]; simp
          rw [mem_members] at ha hb
          refine ⟨a, b, ?_, ha.1, hb.1, 0, hk', ha.2, hb.2⟩
          rintro rfl
          simp at hnd
      obtain ⟨i, j, hij, hs, hle⟩ := e2.min_is hp hno
      exact hfd.order.trans _ _ _ (e1.min_le i j hij (h.same hs)) hle

/-- The pairs of points with the same new cluster are among those with the same old cluster. -/
theorem HiRefines.pairs (hcfg : cfg.Valid) (h : HiRefines cfg S n k old k' new) (hk : k ≤ cfg.clabelMax) : (pairsWithin cfg new n).Sublist (pairsWithin cfg old n) := by
  unfold pairsWithin
  rw [show ((upperPairs (List.range n)).filter fun p => decide (new.get p.1 ≠ some cfg.na ∧ new.get p.1 = new.get p.2)) =
      ((upperPairs (List.range n)).filter fun p => decide (old.get p.1 ≠ some cfg.na ∧ old.get p.1 = old.get p.2)).filter
        (fun p => decide (new.get p.1 ≠ some cfg.na ∧ new.get p.1 = new.get p.2)) from ?_]
  · exact List.filter_sublist
  · rw [List.filter_filter]
    refine List.filter_congr fun p hp => ?_
    obtain ⟨h1, h2⟩ := mem_upperPairs_mem hp
    rw [List.mem_range] at h1 h2
    rw [← Bool.decide_and, decide_eq_decide]
    refine ⟨fun h3 => ⟨h3, ?_⟩, fun h3 => h3.1⟩
    rcases h.valid p.1 h1 with h4 | ⟨c', hc', h4⟩
    · exact absurd h4 h3.1
    · obtain ⟨c, hc, g1, g2⟩ := h.finer p.1 p.2 c' h1 h2 hc' h4 (h3.2 ▸ h4)
      rw [g1, g2]
      exact ⟨fun e => na_ne hcfg hk hc (Option.some.inj e), rfl⟩

theorem sumOf_sublist (hadd : ExactAdd F) (hmono : AddMono F) (hz : IsNum (FloatOps.zero : F)) (htr : FloatLaws F) {l l' : List F} (h : l.Sublist l') (hnn : ∀ x ∈ l', FloatOps.le FloatOps.zero x = true) :
    FloatOps.le (sumOf l) (sumOf l') = true := by
  have hcons : ∀ (a : F) (m : List F), sumOf (a :: m) = FloatOps.add (sumOf m) a := fun a m => by
    rw [hadd.comm]
    exact hadd.sumOf_append [a] m
  induction h with
  | slnil => exact hz
  | @cons l1 l2 a _ ih =>
    have h1 := ih fun x hx => hnn x (List.mem_cons_of_mem _ hx)
    have h2 := hmono _ _ (sumOf l2) (hnn a List.mem_cons_self)
    rw [hadd.comm, hadd.zero_add] at h2
    rw [hcons]
    exact htr.trans _ _ _ h1 h2
  | @cons_cons l1 l2 a _ ih =>
    have h1 := hmono _ _ a (ih fun x hx => hnn x (List.mem_cons_of_mem _ hx))
    rw [hcons, hcons, hadd.comm, hadd.comm (sumOf l2)]
    exact h1

theorem HiRefines.sum_le (hcfg : cfg.Valid) (h : HiRefines cfg S n k old k' new) (hk : k ≤ cfg.clabelMax) {d : Nat → Nat → ℝ} (hd : ∀ p q, p < n → q < n → 0 ≤ d p q) :
    ((pairsWithin cfg new n).map fun p => d p.1 p.2).sum ≤ ((pairsWithin cfg old n).map fun p => d p.1 p.2).sum := by
  refine ((h.pairs hcfg hk).map _).sum_le_sum fun x hx => ?_
  obtain ⟨p, hp, rfl⟩ := List.mem_map.1 hx
  obtain ⟨h1, h2⟩ := mem_upperPairs_mem (List.mem_filter.1 hp).1
  exact hd _ _ (List.mem_range.1 h1) (List.mem_range.1 h2)

end Scc
