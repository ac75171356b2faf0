/-
When the search determines the points in its answers and the build breaks ties by index, a run determines the labels.
-/
import Verif.Proofs.RunOk
import Verif.Proofs.SeedsUnique

set_option linter.unusedSimpArgs false
set_option linter.unusedVariables false

namespace Scc

variable {F : Type} [FloatOps F] {cfg : Cfg} {A : Criterion F}

omit [FloatOps F] in
theorem Determined.stored_eq (h : Determined cfg A) {set : List Nat} {k q : Nat} {R : Option F} {a a' : Option (List Nat)} (ha : A set k R q a) (ha' : A set k R q a') :
    a.map (stored cfg) = a'.map (stored cfg) := by
  rcases h set k R q a a' ha ha' with h1 | _
  · rename_i l l'
    simp only [Option.map_some, Option.some.injEq]
    cases hst : cfg.stableNng with
    | false => rw [hst] at h1; rw [show l = l' from h1]
    | true => rw [hst] at h1; exact stored_congr hst h1
  · rfl

omit [FloatOps F] in
/-- Searches for one neighbour. -/
theorem Determined.single (h : Determined cfg A) {set : List Nat} {R : Option F} {Q : List Nat} {ans ans' : Nat → Option (List Nat)} (ha : Answers A set 1 R Q ans) (ha' : Answers A set 1 R Q ans') (v : Nat) :
    ans v = ans' v := by
  by_cases hv : v ∈ Q
  · have h1 := h _ _ _ _ _ _ (ha.crit v hv) (ha'.crit v hv)
    cases hav : ans v with
    | none =>
      rw [hav] at h1
      cases hav' : ans' v with
      | none => rfl
      | some l' => rw [hav'] at h1; cases h1
    | some l =>
      rw [hav] at h1
      cases hav' : ans' v with
      | none => rw [hav'] at h1; cases h1
      | some l' =>
        rw [hav'] at h1
        obtain ⟨x, rfl⟩ := List.length_eq_one_iff.1 (ha.row v l hav).1
        obtain ⟨y, rfl⟩ := List.length_eq_one_iff.1 (ha'.row v l' hav').1
        cases h1 with
        | some h1 =>
          split at h1
          · rw [List.singleton_perm.1 h1]
          · rw [h1]
  · rw [ha.none_of v hv, ha'.none_of v hv]

theorem seedEstimate_congr {dist : Nat → Nat → F} {rows rows' : Nat → List Nat} {seeds : List Nat} (h : ∀ s ∈ seeds, rows s = rows' s) : seedEstimate dist rows seeds = seedEstimate dist rows' seeds := by
  unfold seedEstimate
  congr 1
  refine List.foldl_ext _ _ _ fun acc s hs => ?_
  have hs' : s ∈ seeds := by
    unfold sampledSeeds at hs
    split at hs
    · exact hs
    · obtain ⟨i, -, hi⟩ := List.mem_filterMap.1 hs
      exact List.mem_of_getElem? hi
  unfold meanDist
  rw [h s hs']

omit [FloatOps F] in
theorem SearchStage.unique (h : Determined cfg A) {n : Nat} {um : UnassignedMethod} {base seeds P : List Nat} {R : Option F} {L M L' M' : Nat → Option Nat} (hP : ∀ v ∈ P, v < n)
    (hL : ∀ v, v < n → L v = M v) (hseeds : ∀ s ∈ seeds, s < n) (hbase : ∀ s ∈ base, s < n) (h1 : SearchStage A n um base seeds R P L L') (h2 : SearchStage A n um base seeds R P M M') :
    ∀ v, v < n → L' v = M' v := by
  have hfil : (P.filter fun v => (L v).isNone) = P.filter fun v => (M v).isNone := List.filter_congr fun v hv => by rw [hL v (hP v hv)]
  have key : ∀ {set : List Nat}, (∀ s ∈ set, s < n) → (∃ ans, Answers A set 1 R (P.filter fun v => (L v).isNone) ans ∧ ∀ v, v < n → L' v = searchLab ans L v) →
      (∃ ans, Answers A set 1 R (P.filter fun v => (M v).isNone) ans ∧ ∀ v, v < n → M' v = searchLab ans M v) → ∀ v, v < n → L' v = M' v := by
    rintro set hset ⟨ans, a1, a2⟩ ⟨ans', b1, b2⟩ v hv
    rw [hfil] at a1
    rw [a2 v hv, b2 v hv]
    unfold searchLab
    rw [hL v hv]
    cases hM : M v with
    | some c => rfl
    | none =>
      dsimp only
      rw [← h.single a1 b1 v]
      cases hav : ans v with
      | none => rfl
      | some l =>
        cases l with
        | nil => rfl
        | cons x l' => exact hL x (hset x ((a1.row v _ hav).2.2 (by simp)))
  cases um with
  | closestAssigned => exact key hbase h1 h2
  | closestSeed => exact key hseeds h1 h2
  | ignore => exact fun v hv => by rw [h1 v hv, h2 v hv, hL v hv]
  | anyNeighbor => exact fun v hv => by rw [h1 v hv, h2 v hv, hL v hv]
  | unknown => exact fun v hv => by rw [h1 v hv, h2 v hv, hL v hv]

omit [FloatOps F] in
theorem NngStored.unique (hdet : Determined cfg A) {n : Nat} {o : Options F} {P : List Nat} {lab c : Nat → Nat} {rows rows' : Nat → List Nat} (ht : o.numTypes < 2)
    (hself : cfg.stableNng = true → ∀ q ∈ P, ∀ a, A (List.range n) o.sizeConstraint (seedLimit o) q (some a) → q ∈ a)
    (h : NngStored cfg A n o P lab c rows) (h' : NngStored cfg A n o P lab c rows') : ∀ v, v < n → rows v = rows' v := by
  obtain ⟨r, ⟨-, ans, h1, h2⟩ | ⟨h1, -⟩, he⟩ := h
  swap
  · omega
  obtain ⟨r', ⟨-, ans', h1', h2'⟩ | ⟨h1', -⟩, he'⟩ := h'
  swap
  · omega
  intro v hv
  rw [he, he', h2 v hv, h2' v hv]
  unfold ansRows
  by_cases hvP : v ∈ P
  · have h3 := hdet _ _ _ _ _ _ (h1.crit v hvP) (h1'.crit v hvP)
    cases hav : ans v with
    | none =>
      rw [hav] at h3
      cases hav' : ans' v with
      | none => rfl
      | some l' => rw [hav'] at h3; cases h3
    | some l =>
      rw [hav] at h3
      cases hav' : ans' v with
      | none => rw [hav'] at h3; cases h3
      | some l' =>
        rw [hav'] at h3
        simp only [Option.getD_some]
        cases h3 with
        | some h3 =>
          cases hst : cfg.stableNng with
          | false => rw [hst] at h3; rw [show l = l' from h3]
          | true =>
            rw [hst] at h3
            rw [stored_nbrs (hself hst v hvP l (hav ▸ h1.crit v hvP)), stored_nbrs (hself hst v hvP l' (hav' ▸ h1'.crit v hvP)), stored_congr hst h3]
  · rw [h1.none_of v hvP, h1'.none_of v hvP]

omit [FloatOps F] in
theorem seeds_unique {m : SeedMethod} {n : Nat} {rows rows' : Nat → List Nat} {order order' : List Nat} (hstable : m = .inwardsUpdating ∨ m = .exclusionUpdating → cfg.stableSeeds = true)
    (hrows : ∀ v, v < n → rows v = rows' v) (hp : order.Perm (List.range n)) (hp' : order'.Perm (List.range n)) (h : BuildOrder cfg m rows n order) (h' : BuildOrder cfg m rows' n order') :
    greedySeeds rows order = greedySeeds rows' order' := by
  have hso : ∀ {rows : Nat → List Nat} {order : List Nat}, BuildOrder cfg m rows n order → StableOrder m rows n order := by
    intro rows order hb
    cases m with
    | inwardsUpdating => exact hb.2 (hstable (Or.inl rfl))
    | exclusionUpdating => exact hb.2 (hstable (Or.inr rfl))
    | lexical => exact hb.1
    | inwardsOrder => exact hb.1
    | exclusionOrder => exact hb.1
  have hsame : SameArcs n rows rows' := fun v hv => by rw [hrows v hv]
  rw [hsame.greedy fun v hv => by simpa using hp.mem_iff.1 hv]
  exact stableOrder_unique hp hp' (hsame.stableOrder hp (hso h)) (hso h')

/-- The options agree about the stages in which points are assigned. -/
structure SameStages (o o' : Options F) : Prop where
  types : o'.numTypes < 2 ↔ o.numTypes < 2
  primaryMethod : o'.primaryMethod = o.primaryMethod
  secondaryMethod : o'.secondaryMethod = o.secondaryMethod
  seedLimit : seedLimit o' = seedLimit o
  primary : o'.primaryRadius = o.primaryRadius ∧ o'.primarySupplied = o.primarySupplied
  secondary : o'.secondaryRadius = o.secondaryRadius ∧ o'.secondarySupplied = o.secondarySupplied

omit [FloatOps F] in
theorem SameStages.refl (o : Options F) : SameStages o o := ⟨Iff.rfl, rfl, rfl, rfl, ⟨rfl, rfl⟩, ⟨rfl, rfl⟩⟩

omit [FloatOps F] in
theorem stageRadius_congr {o o' : Options F} (h : seedLimit o' = seedLimit o) (um : UnassignedMethod) (m : RadiusMethod) (r est : F) : stageRadius o' um m r est = stageRadius o um m r est := by
  unfold stageRadius
  cases um <;> cases m <;> simp [h]

/-- The labels of two runs, the second of which lost no search: they are the same, or the first run lost its last search and they are the same up to points that it left unassigned. -/
theorem RunData.unique_rows (hdet : Determined cfg A) {dist : Nat → Nat → F} {n : Nat} {o o' : Options F} (ho : SameStages o o') {m : SeedMethod} {P : List Nat} {lab c lab' c' : Nat → Nat} (hP : ∀ v ∈ P, v < n) {lost : Prop}
    {rows rows' : Nat → List Nat} {order order' : List Nat} {L2 L3 L M2 M3 M : Nat → Option Nat} {k k' : Nat} {l l' : Buf Int} (hrows : ∀ v, v < n → rows v = rows' v)
    (hstable : m = .inwardsUpdating ∨ m = .exclusionUpdating → cfg.stableSeeds = true)
    (h : RunData cfg A dist n o m P lab c lost rows order L2 L3 L k l) (h' : RunData cfg A dist n o' m P lab' c' False rows' order' M2 M3 M k' l') :
    k = k' ∧ ((∀ v, v < n → l.get v = l'.get v) ∨
      lost ∧ (o.secondaryMethod = .closestAssigned ∨ o.secondaryMethod = .closestSeed) ∧ ∀ v, v < n → l.get v = l'.get v ∨ l.get v = some cfg.na) := by
  have hlt : ∀ v ∈ order, v < n := fun v hv => by simpa using h.perm.mem_iff.1 hv
  have hseeds := seeds_unique hstable hrows h.perm h'.perm h.method h'.method
  have hslt : ∀ s ∈ greedySeeds rows order, s < n := fun s hs => hlt s ((greedySeeds_sublist _ _).subset hs)
  have hlab : ∀ v, seedLab rows (greedySeeds rows order) v = seedLab rows' (greedySeeds rows' order') v := by
    intro v
    rw [seedLab_congr fun s hs => hrows s (hslt s hs), hseeds]
  have hst := h.staged
  have hst' := h'.staged
  rw [show decide (o'.numTypes < 2) = decide (o.numTypes < 2) from decide_eq_decide.2 ho.types, ho.primaryMethod, ho.secondaryMethod, ho.primary.1, ho.primary.2, ho.secondary.1, ho.secondary.2,
    stageRadius_congr ho.seedLimit, stageRadius_congr ho.seedLimit] at hst'
  rw [seedEstimate_congr fun s hs => hrows s (hslt s hs)] at hst
  obtain ⟨n1, f1, s1⟩ := hst
  obtain ⟨n2, f2, s2⟩ := hst'
  rw [funext hlab, hseeds] at f1 s1
  have hbase : ∀ s ∈ labelled n (seedLab rows' (greedySeeds rows' order')), s < n := fun s hs => List.mem_range.1 (List.mem_filter.1 hs).1
  have hlen : (greedySeeds rows order).length = (greedySeeds rows' order').length := by rw [hseeds]
  rw [hseeds] at hslt
  have hL2 : ∀ v, v < n → L2 v = M2 v := by
    intro v hv
    rw [n1 v hv, n2 v hv, funext hlab]
    unfold nngLab
    rw [hrows v hv]
  have hL3 := SearchStage.unique hdet hP hL2 hslt hbase f1 f2
  refine ⟨by rw [h.count, h'.count, hlen], ?_⟩
  have s2' := s2.resolve_right fun h => h.1
  rcases s1 with s1 | ⟨hlost, s1⟩
  · left
    intro v hv
    rw [h.labels v hv, h'.labels v hv, SearchStage.unique hdet (fun v hv => List.mem_range.1 hv) hL3 hslt hbase s1 s2' v hv]
  · have hsearch : ∀ ans, (∀ v, v < n → M v = searchLab ans M3 v) → ∀ v, v < n → l.get v = l'.get v ∨ l.get v = some cfg.na := by
      intro ans ha v hv
      rw [h.labels v hv, h'.labels v hv, s1 v hv, hL3 v hv, ha v hv]
      cases hM : M3 v with
      | none => exact Or.inr rfl
      | some x => exact Or.inl (by unfold searchLab; rw [hM])
    cases hum : o.secondaryMethod with
    | closestAssigned =>
      rw [hum] at s2'
      obtain ⟨ans, -, ha⟩ := s2'
      exact Or.inr ⟨hlost, Or.inl rfl, hsearch ans ha⟩
    | closestSeed =>
      rw [hum] at s2'
      obtain ⟨ans, -, ha⟩ := s2'
      exact Or.inr ⟨hlost, Or.inr rfl, hsearch ans ha⟩
    | _ =>
      rw [hum] at s2'
      left
      intro v hv
      rw [h.labels v hv, h'.labels v hv, s1 v hv, hL3 v hv, s2' v hv]

/-- The same for equal options without types. -/
theorem RunData.unique_lost (hdet : Determined cfg A) {dist : Nat → Nat → F} {n : Nat} {o : Options F} {m : SeedMethod} {P : List Nat} {lab c : Nat → Nat} (hP : ∀ v ∈ P, v < n) {lost : Prop}
    {rows rows' : Nat → List Nat} {order order' : List Nat} {L2 L3 L M2 M3 M : Nat → Option Nat} {k k' : Nat} {l l' : Buf Int} (ht : o.numTypes < 2)
    (hself : cfg.stableNng = true → ∀ q ∈ P, ∀ a, A (List.range n) o.sizeConstraint (seedLimit o) q (some a) → q ∈ a)
    (hstable : m = .inwardsUpdating ∨ m = .exclusionUpdating → cfg.stableSeeds = true)
    (h : RunData cfg A dist n o m P lab c lost rows order L2 L3 L k l) (h' : RunData cfg A dist n o m P lab c False rows' order' M2 M3 M k' l') :
    k = k' ∧ ((∀ v, v < n → l.get v = l'.get v) ∨
      lost ∧ (o.secondaryMethod = .closestAssigned ∨ o.secondaryMethod = .closestSeed) ∧ ∀ v, v < n → l.get v = l'.get v ∨ l.get v = some cfg.na) :=
  RunData.unique_rows hdet (.refl o) hP (NngStored.unique hdet ht hself h.nng h'.nng) hstable h h'

theorem RunData.unique (hdet : Determined cfg A) {dist : Nat → Nat → F} {n : Nat} {o : Options F} {m : SeedMethod} {P : List Nat} {lab c : Nat → Nat} (hP : ∀ v ∈ P, v < n)
    {rows rows' : Nat → List Nat} {order order' : List Nat} {L2 L3 L M2 M3 M : Nat → Option Nat} {k k' : Nat} {l l' : Buf Int} (ht : o.numTypes < 2)
    (hself : cfg.stableNng = true → ∀ q ∈ P, ∀ a, A (List.range n) o.sizeConstraint (seedLimit o) q (some a) → q ∈ a)
    (hstable : m = .inwardsUpdating ∨ m = .exclusionUpdating → cfg.stableSeeds = true)
    (h : RunData cfg A dist n o m P lab c False rows order L2 L3 L k l) (h' : RunData cfg A dist n o m P lab c False rows' order' M2 M3 M k' l') :
    k = k' ∧ ∀ v, v < n → l.get v = l'.get v := by
  obtain ⟨h1, h2⟩ := RunData.unique_lost hdet hP ht hself hstable h h'
  exact ⟨h1, h2.resolve_right fun h => h.1⟩

end Scc
