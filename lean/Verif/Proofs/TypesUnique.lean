/-
When the answers of the search are determined, the digraph for type constraints is determined, up to the order of arcs by what the points of the constrained types are.
-/
import Verif.Proofs.RunUnique
import Verif.Spec.Types

set_option linter.unusedSimpArgs false
set_option linter.unusedVariables false

namespace Scc

variable {F : Type} {cfg : Cfg} {A : Criterion F}

theorem OneAnswer.determined (h : OneAnswer A) (cfg : Cfg) : Determined cfg A := by
  intro set k R q a a' ha ha'
  rw [h _ _ _ _ _ _ ha ha']
  cases a' with
  | none => exact .none
  | some l => exact .some (by split; exacts [List.Perm.refl _, rfl])

/-- The types with constraints. -/
def conTypes (c : Nat → Nat) (T : Nat) : List Nat := (List.range T).filter fun t => 0 < c t

theorem mem_conTypes {c : Nat → Nat} {T t : Nat} : t ∈ conTypes c T ↔ t < T ∧ 0 < c t := by simp [conTypes]

theorem Renamed.perm {n T T' : Nat} {lab c lab' c' π : Nat → Nat} (h : Renamed n T T' lab c lab' c' π) : (conTypes c' T').Perm ((conTypes c T).map π) := by
  have hnd : ∀ c T, (conTypes c T).Nodup := fun c T => List.nodup_range.sublist List.filter_sublist
  refine (List.perm_ext_iff_of_nodup (hnd _ _) ?_).2 fun s => ?_
  · refine List.Nodup.map_on (fun t ht s hs hts => ?_) (hnd _ _)
    rw [mem_conTypes] at ht hs
    exact h.inj t s ht.1 hs.1 ht.2 hs.2 hts
  · rw [mem_conTypes, List.mem_map]
    constructor
    · rintro ⟨hs, hc⟩
      obtain ⟨t, k1, k2, k3⟩ := h.onto s hs hc
      exact ⟨t, mem_conTypes.2 ⟨k1, k2⟩, k3⟩
    · rintro ⟨t, ht, rfl⟩
      rw [mem_conTypes] at ht
      exact ⟨h.lt t ht.1 ht.2, by rw [h.con t ht.1 ht.2]; exact ht.2⟩

theorem Renamed.eq_map {n T T' : Nat} {lab c lab' c' π : Nat → Nat} (h : Renamed n T T' lab c lab' c' π) (hmono : ∀ t s, t < s → s < T → 0 < c t → 0 < c s → π t < π s) :
    conTypes c' T' = (conTypes c T).map π := by
  have hs : ∀ c T, (conTypes c T).Pairwise (· < ·) := fun c T => List.pairwise_lt_range.sublist List.filter_sublist
  refine h.perm.eq_of_pairwise (le := (· ≤ ·)) (fun a b _ _ h1 h2 => Nat.le_antisymm h1 h2) ((hs _ _).imp fun h => Nat.le_of_lt h) ?_
  rw [List.pairwise_map]
  refine (hs c T).imp_of_mem fun {a b} ha hb hab => ?_
  rw [mem_conTypes] at ha hb
  exact Nat.le_of_lt (hmono a b hab hb.1 ha.2 hb.2)

theorem Renamed.group {n T T' : Nat} {lab c lab' c' π : Nat → Nat} (h : Renamed n T T' lab c lab' c' π) {t : Nat} (ht : t < T) (hc : 0 < c t) : typeGroup n lab' (π t) = typeGroup n lab t := by
  unfold typeGroup
  congr 1
  exact List.filter_congr fun v hv => decide_eq_decide.2 (h.points t ht hc v (List.mem_range.1 hv))

theorem sumTo_conTypes (c : Nat → Nat) (T : Nat) : sumTo c T = ((conTypes c T).map c).sum := by
  rw [conTypes, sum_filter_pos, sumTo_eq_sum]

theorem Renamed.sum {n T T' : Nat} {lab c lab' c' π : Nat → Nat} (h : Renamed n T T' lab c lab' c' π) : sumTo c' T' = sumTo c T := by
  rw [sumTo_conTypes, sumTo_conTypes, (h.perm.map c').sum_eq, List.map_map]
  congr 1
  exact List.map_congr_left fun t ht => by rw [mem_conTypes] at ht; exact h.con t ht.1 ht.2

theorem Renamed.typePart {n T T' : Nat} {lab c lab' c' π : Nat → Nat} (h : Renamed n T T' lab c lab' c' π) {v : Nat} (hv : v < n) {a a' : Nat → List Nat}
    (ha : ∀ t, t < T → 0 < c t → a' (π t) = a t) :
    (Scc.typePart lab' c' T' v a').Perm (Scc.typePart lab c T v a) ∧
    ((∀ t s, t < s → s < T → 0 < c t → 0 < c s → π t < π s) → Scc.typePart lab' c' T' v a' = Scc.typePart lab c T v a) := by
  have key : ((conTypes c T).map π).flatMap (fun t => if lab' v = t then selfRow v (a' t) else a' t) = Scc.typePart lab c T v a := by
    rw [List.flatMap_map]
    refine List.flatMap_congr fun t ht => ?_
    rw [mem_conTypes] at ht
    rw [ha t ht.1 ht.2]
    simp only [h.points t ht.1 ht.2 v hv]
  refine ⟨?_, fun hmono => ?_⟩
  · rw [← key]
    exact h.perm.flatMap_right _
  · rw [← key, ← h.eq_map hmono]
    rfl

theorem perm_firstOcc {s l l' : List Nat} (h : l.Perm l') : (firstOcc s l).Perm (firstOcc s l') :=
  (List.perm_ext_iff_of_nodup nodup_firstOcc nodup_firstOcc).2 fun x => by rw [mem_firstOcc, mem_firstOcc, h.mem_iff]

/-- New names for types change at most the order of arcs. -/
theorem TypeNng.renamed (hord : OneAnswer A) {n S T T' : Nat} {R : Option F} {lab c lab' c' π : Nat → Nat} (hr : Renamed n T T' lab c lab' c' π) {Q : List Nat} {rows rows' : Nat → List Nat}
    (h : TypeNng A n S R lab c T Q rows) (h' : TypeNng A n S R lab' c' T' Q rows') {v : Nat} (hv : v < n) :
    (rows v).Perm (rows' v) ∧ ((∀ t s, t < s → s < T → 0 < c t → 0 < c s → π t < π s) → rows v = rows' v) := by
  by_cases h0 : rows v = []
  · by_cases h0' : rows' v = []
    · rw [h0, h0']; exact ⟨List.Perm.refl _, fun _ => rfl⟩
    · exfalso
      have hvQ : v ∈ Q := ((h'.row v hv).resolve_left h0').1
      obtain ⟨W, ⟨a, k1, k2⟩, -⟩ := h'.takes v hv h0'
      rcases (h.infeasible v hvQ h0).2 with ⟨g1, g2⟩ | ⟨t, ht, hc, g2⟩
      · rcases k2 with ⟨k2, -⟩ | ⟨-, g, k3, -⟩
        · rw [hr.sum] at k2; omega
        · exact absurd (hord _ _ _ _ _ _ g2 k3) (by simp)
      · have h1 := (k1 (π t) (hr.lt t ht hc) (by rw [hr.con t ht hc]; exact hc)).1
        rw [hr.group ht hc, hr.con t ht hc] at h1
        exact absurd (hord _ _ _ _ _ _ g2 h1) (by simp)
  · obtain ⟨W, ⟨a, k1, k2⟩, k3⟩ := h.takes v hv h0
    have hvQ : v ∈ Q := ((h.row v hv).resolve_left h0).1
    by_cases h0' : rows' v = []
    · exfalso
      rcases (h'.infeasible v hvQ h0').2 with ⟨g1, g2⟩ | ⟨s, hs, hc, g2⟩
      · rcases k2 with ⟨k2, -⟩ | ⟨-, g, k3, -⟩
        · rw [hr.sum] at g1; omega
        · exact absurd (hord _ _ _ _ _ _ g2 k3) (by simp)
      · obtain ⟨t, ht, hct, rfl⟩ := hr.onto s hs hc
        rw [hr.group ht hct, hr.con t ht hct] at g2
        exact absurd (hord _ _ _ _ _ _ g2 (k1 t ht hct).1) (by simp)
    · obtain ⟨W', ⟨a', k1', k2'⟩, k3'⟩ := h'.takes v hv h0'
      have ha : ∀ t, t < T → 0 < c t → a' (π t) = a t := by
        intro t ht hc
        have h1 := (k1' (π t) (hr.lt t ht hc) (by rw [hr.con t ht hc]; exact hc)).1
        rw [hr.group ht hc, hr.con t ht hc] at h1
        exact Option.some.inj (hord _ _ _ _ _ _ h1 (k1 t ht hc).1)
      obtain ⟨p1, p2⟩ := hr.typePart hv ha
      have hW : W'.Perm W ∧ ((∀ t s, t < s → s < T → 0 < c t → 0 < c s → π t < π s) → W' = W) := by
        rw [hr.sum] at k2'
        rcases k2 with ⟨k2, rfl⟩ | ⟨k2, g, g1, g2, rfl⟩
        · rcases k2' with ⟨-, rfl⟩ | ⟨k2', -⟩
          · exact ⟨p1, p2⟩
          · omega
        · rcases k2' with ⟨k2', -⟩ | ⟨-, g', g1', g2', rfl⟩
          · omega
          · have hg : g' = g := Option.some.inj (hord _ _ _ _ _ _ g1' g1)
            subst hg
            have hf : (g'.filter fun x => x ∉ Scc.typePart lab' c' T' v a') = g'.filter fun x => x ∉ Scc.typePart lab c T v a := List.filter_congr fun x _ => decide_eq_decide.2 (not_congr p1.mem_iff)
            rw [hf]
            exact ⟨p1.append_right _, fun hm => by rw [p2 hm]⟩
      rw [k3, k3']
      exact ⟨(perm_firstOcc hW.1).symm, fun hm => by rw [hW.2 hm]⟩

theorem Renamed.refl (n T : Nat) (lab c : Nat → Nat) : Renamed n T T lab c lab c id :=
  ⟨fun _ h _ => h, fun _ _ _ => rfl, fun _ _ _ _ _ => Iff.rfl, fun _ _ _ _ _ _ h => h, fun s h1 h2 => ⟨s, h1, h2, rfl⟩⟩

/-- The digraphs as they are stored. -/
theorem NngStored.renamed (hord : OneAnswer A) {n : Nat} {o o' : Options F} {P : List Nat} {lab c lab' c' π : Nat → Nat} {rows rows' : Nat → List Nat} (ht : 2 ≤ o.numTypes) (ht' : 2 ≤ o'.numTypes)
    (hS : o'.sizeConstraint = o.sizeConstraint) (hR : seedLimit o' = seedLimit o) (hr : Renamed n o.numTypes o'.numTypes lab c lab' c' π)
    (hst : cfg.stableNng = true ∨ ∀ t s, t < s → s < o.numTypes → 0 < c t → 0 < c s → π t < π s)
    (h : NngStored cfg A n o P lab c rows) (h' : NngStored cfg A n o' P lab' c' rows') : ∀ v, v < n → rows v = rows' v := by
  obtain ⟨r, ⟨h1, -⟩ | ⟨-, h1⟩, he⟩ := h
  · omega
  obtain ⟨r', ⟨h1', -⟩ | ⟨-, h1'⟩, he'⟩ := h'
  · omega
  rw [hS, hR] at h1'
  intro v hv
  obtain ⟨k1, k2⟩ := TypeNng.renamed hord hr h1 h1' hv
  rw [he, he']
  rcases hst with hst | hst
  · exact stored_congr hst k1
  · rw [k2 hst]

/-- When the type constraints leave no points to choose, the points of the answers determine the arcs up to order. -/
theorem TypeNng.full (hdet : Determined cfg A) (hst : cfg.stableNng = true) {n S T : Nat} {R : Option F} {lab c : Nat → Nat} {Q : List Nat} {rows rows' : Nat → List Nat} (hsum : sumTo c T = S)
    (hself : ∀ v ∈ Q, lab v < T → 0 < c (lab v) → ∀ a, A (typeGroup n lab (lab v)) (c (lab v)) R v (some a) → v ∈ a)
    (h : TypeNng A n S R lab c T Q rows) (h' : TypeNng A n S R lab c T Q rows') {v : Nat} (hv : v < n) : (rows v).Perm (rows' v) := by
  have hno : ∀ {set k q l}, A set k R q (some l) → ¬ A set k R q none := fun h1 h2 => by cases hdet _ _ _ _ _ _ h1 h2
  have key : ∀ {r r' : Nat → List Nat}, TypeNng A n S R lab c T Q r → TypeNng A n S R lab c T Q r' → r v = [] → r' v = [] := by
    intro r r' h h' h0
    by_contra h0'
    have hvQ : v ∈ Q := ((h'.row v hv).resolve_left h0').1
    obtain ⟨W, ⟨a, k1, k2⟩, -⟩ := h'.takes v hv h0'
    rcases (h.infeasible v hvQ h0).2 with ⟨g1, g2⟩ | ⟨t, ht, hc, g2⟩
    · omega
    · exact hno (k1 t ht hc).1 g2
  by_cases h0 : rows v = []
  · rw [h0, key h h' h0]
  · by_cases h0' : rows' v = []
    · exact absurd (key h' h h0') h0
    · obtain ⟨W, ⟨a, k1, k2⟩, k3⟩ := h.takes v hv h0
      obtain ⟨W', ⟨a', k1', k2'⟩, k3'⟩ := h'.takes v hv h0'
      have hvQ : v ∈ Q := ((h.row v hv).resolve_left h0).1
      have hW : W = typePart lab c T v a := by rcases k2 with ⟨-, k2⟩ | ⟨k2, -⟩; exacts [k2, by omega]
      have hW' : W' = typePart lab c T v a' := by rcases k2' with ⟨-, k2⟩ | ⟨k2, -⟩; exacts [k2, by omega]
      rw [k3, k3', hW, hW']
      refine perm_firstOcc ?_
      unfold typePart
      refine List.Perm.flatMap_left _ fun t ht => ?_
      obtain ⟨ht1, ht2⟩ := mem_conTypes.1 ht
      have hp : (a t).Perm (a' t) := by
        have := hdet _ _ _ _ _ _ (k1 t ht1 ht2).1 (k1' t ht1 ht2).1
        cases this with
        | some h => simpa [hst] using h
      split
      · rename_i hl
        subst hl
        rw [selfRow, selfRow, if_pos (Or.inl (hself v hvQ ht1 ht2 _ (k1 _ ht1 ht2).1)), if_pos (Or.inl (hself v hvQ ht1 ht2 _ (k1' _ ht1 ht2).1))]
        exact hp
      · exact hp

end Scc
