/-
Consequences of the specification of a successful run.
-/
import Verif.Proofs.Call

set_option linter.unusedSimpArgs false
set_option linter.unusedVariables false

namespace Scc

variable {F : Type} [FloatOps F]

section
variable {cfg : Cfg} {A : Criterion F} {dist : Nat → Nat → F} {n : Nat} {o : Options F} {m : SeedMethod} {P : List Nat} {lab c : Nat → Nat} {lost : Prop}
  {rows : Nat → List Nat} {order : List Nat} {L2 L3 L : Nat → Option Nat} {k : Nat} {l : Buf Int}

theorem seedLab_seed {n : Nat} {rows : Nat → List Nat} {seeds : List Nat} (h : SeedsOk n rows seeds) {x i : Nat} (hx : x ∈ seeds) (hi : seedLab rows seeds x = some i) : seeds[i]? = some x := by
  obtain ⟨j, hj⟩ := List.mem_iff_getElem?.1 hx
  rw [h.seedLab hj (by simp [closedNbr])] at hi
  simp at hi
  rw [← hi, hj]

theorem capturedBy_iff {n : Nat} {rows : Nat → List Nat} {seeds : List Nat} (h : SeedsOk n rows seeds) {x i : Nat} : CapturedBy rows seeds i x ↔ seedLab rows seeds x = some i := by
  constructor
  · rintro ⟨s, h1, h2⟩; exact h.seedLab h1 h2
  · intro hx
    obtain ⟨s, h1, h2⟩ := seedLab_some hx
    exact ⟨s, h1, h2⟩

theorem RunData.facts (h : RunData cfg A dist n o m P lab c lost rows order L2 L3 L k l) (hS : 2 ≤ o.sizeConstraint) : NngFacts n o.sizeConstraint P rows := h.nng.facts hS

theorem RunData.seedsOk (h : RunData cfg A dist n o m P lab c lost rows order L2 L3 L k l) (hS : 2 ≤ o.sizeConstraint) : SeedsOk n rows (greedySeeds rows order) :=
  seedsOk_of_nng (h.facts hS) h.perm

theorem RunData.keep2 (h : RunData cfg A dist n o m P lab c lost rows order L2 L3 L k l) {v i : Nat} (hv : v < n) (hi : seedLab rows (greedySeeds rows order) v = some i) : L2 v = some i := by
  rw [h.staged.nng v hv]
  split
  · rw [nngLab_of_some (by rw [hi]; rfl), hi]
  · exact hi

theorem RunData.keep3 (h : RunData cfg A dist n o m P lab c lost rows order L2 L3 L k l) {v i : Nat} (hv : v < n) (hi : L2 v = some i) : L3 v = some i := h.staged.first.keep hv hi

theorem RunData.keep4 (h : RunData cfg A dist n o m P lab c lost rows order L2 L3 L k l) {v i : Nat} (hv : v < n) (hi : L3 v = some i) : L v = some i := by
  rcases h.staged.second with h' | ⟨-, h'⟩
  · exact h'.keep hv hi
  · rw [h' v hv, hi]

theorem RunData.keep (h : RunData cfg A dist n o m P lab c lost rows order L2 L3 L k l) {v i : Nat} (hv : v < n) (hi : seedLab rows (greedySeeds rows order) v = some i) : L v = some i :=
  h.keep4 hv (h.keep3 hv (h.keep2 hv hi))

theorem RunData.lt (h : RunData cfg A dist n o m P lab c lost rows order L2 L3 L k l) (hS : 2 ≤ o.sizeConstraint) : LabelsLt n k L := by
  have hf := h.facts hS
  have hsok := h.seedsOk hS
  have h1 : LabelsLt n k (seedLab rows (greedySeeds rows order)) := fun v c _ hc => by rw [h.count]; exact seedLab_lt hc
  have h2 : LabelsLt n k L2 := by
    intro v c hv hc
    rw [h.staged.nng v hv] at hc
    split at hc
    · exact nngLab_lt hf.range h1 v c hv hc
    · exact h1 v c hv hc
  have hb : ∀ x ∈ labelled n (seedLab rows (greedySeeds rows order)), x < n := fun x hx => (mem_labelled.1 hx).1
  have h3 := h.staged.first.lt hb hsok.range h2
  rcases h.staged.second with h' | ⟨-, h'⟩
  · exact h'.lt hb hsok.range h3
  · intro v c hv hc; rw [h' v hv] at hc; exact h3 v c hv hc

theorem LabelsAre.get_eq (hcfg : cfg.Valid) (hl : LabelsAre cfg n l L) (hlt : LabelsLt n k L) (hk : k ≤ cfg.clabelMax) {v i : Nat} (hv : v < n) (hi : i < k) :
    l.get v = some (i : Int) ↔ L v = some i := by
  rw [hl v hv]
  constructor
  · intro h
    cases hL : L v with
    | none =>
      rw [hL] at h
      simp [encLabel] at h
      have := hcfg.na_out
      omega
    | some j =>
      rw [hL] at h
      simp [encLabel] at h
      rw [h]
  · intro h; rw [h]; rfl

theorem LabelsAre.unassigned_iff (hcfg : cfg.Valid) (hl : LabelsAre cfg n l L) (hlt : LabelsLt n k L) (hk : k ≤ cfg.clabelMax) {v : Nat} (hv : v < n) :
    Unassigned cfg l v ↔ L v = none := by
  unfold Unassigned
  rw [hl v hv]
  constructor
  · intro h
    simp only [Option.some.injEq] at h
    exact (encLabel_eq_na hcfg fun c hc => (hlt v c hv hc).trans_le hk).1 h
  · intro h; rw [h]; rfl

theorem LabelsAre.valid (hl : LabelsAre cfg n l L) (hlt : LabelsLt n k L) : ValidLabels cfg l n k := by
  intro v hv
  cases hL : L v with
  | none => exact Or.inl (by unfold Unassigned; rw [hl v hv, hL]; rfl)
  | some i => exact Or.inr ⟨i, hlt v i hv hL, by rw [hl v hv, hL]; rfl⟩

theorem mem_members {b : Buf Int} {n i v : Nat} : v ∈ members b n i ↔ v < n ∧ b.get v = some (i : Int) := by simp [members]

theorem nodup_members {b : Buf Int} {n i : Nat} : (members b n i).Nodup := List.nodup_range.filter _

/-- The labels of points captured by seeds. -/
theorem RunData.captured (h : RunData cfg A dist n o m P lab c lost rows order L2 L3 L k l) (hcfg : cfg.Valid) (hS : 2 ≤ o.sizeConstraint) {i x : Nat}
    (hx : CapturedBy rows (greedySeeds rows order) i x) : x < n ∧ i < k ∧ l.get x = some (i : Int) := by
  obtain ⟨s, hs, hxs⟩ := hx
  have hsok := h.seedsOk hS
  have hsn := hsok.range s (List.mem_of_getElem? hs)
  have hxn : x < n := by
    rcases List.mem_cons.1 hxs with rfl | hxs
    · exact hsn
    · exact (h.facts hS).range s hsn x hxs
  have hik : i < k := by rw [h.count]; exact (List.getElem?_eq_some_iff.1 hs).1
  exact ⟨hxn, hik, (h.labels.get_eq hcfg (h.lt hS) h.cap hxn hik).2 (h.keep hxn (hsok.seedLab hs hxs))⟩

theorem RunData.nodup_closed (h : RunData cfg A dist n o m P lab c lost rows order L2 L3 L k l) (hS : 2 ≤ o.sizeConstraint) {s : Nat} (hs : s < n) : (closedNbr rows s).Nodup := by
  have := (h.facts hS).nodup s hs
  exact List.nodup_cons.2 ⟨this.2, this.1⟩

theorem RunData.seedClusters (h : RunData cfg A dist n o m P lab c lost rows order L2 L3 L k l) (hcfg : cfg.Valid) (hS : 2 ≤ o.sizeConstraint) :
    SeedClusters cfg A n o P lab c k l rows (greedySeeds rows order) := by
  refine ⟨h.nng, h.count.symm, fun s hs => ?_, fun i x hx => ?_, (h.seedsOk hS).nodup, fun s hs => h.nodup_closed hS ((h.seedsOk hS).range s hs)⟩
  · have := (h.seedsOk hS).range s hs
    have h2 := greedySeeds_arcs s hs
    exact ⟨this, (h.facts hS).mem s this h2, h2⟩
  · have := h.captured hcfg hS hx; exact ⟨this.1, this.2.2⟩

theorem RunData.closed_subset (h : RunData cfg A dist n o m P lab c lost rows order L2 L3 L k l) (hcfg : cfg.Valid) (hS : 2 ≤ o.sizeConstraint) {i s : Nat}
    (hs : (greedySeeds rows order)[i]? = some s) : closedNbr rows s ⊆ members l n i := by
  intro x hx
  obtain ⟨h1, -, h2⟩ := h.captured hcfg hS ⟨s, hs, hx⟩
  exact mem_members.2 ⟨h1, h2⟩

theorem RunData.seed_of_lt (h : RunData cfg A dist n o m P lab c lost rows order L2 L3 L k l) (hS : 2 ≤ o.sizeConstraint) {i : Nat} (hi : i < k) :
    ∃ s, (greedySeeds rows order)[i]? = some s ∧ s < n ∧ rows s ≠ [] := by
  rw [h.count] at hi
  refine ⟨_, List.getElem?_eq_getElem hi, ?_, ?_⟩
  · exact (h.seedsOk hS).range _ (List.getElem_mem hi)
  · exact greedySeeds_arcs _ (List.getElem_mem hi)

theorem RunData.size_le (h : RunData cfg A dist n o m P lab c lost rows order L2 L3 L k l) (hcfg : cfg.Valid) (hS : 2 ≤ o.sizeConstraint) {i : Nat} (hi : i < k) :
    o.sizeConstraint ≤ (members l n i).length := by
  obtain ⟨s, h1, h2, h3⟩ := h.seed_of_lt hS hi
  have hsub := (List.subperm_of_subset (h.nodup_closed hS h2) (h.closed_subset hcfg hS h1)).length_le
  have := (h.facts hS).low s h2 h3
  simp [closedNbr] at hsub
  omega

/-- A point captured by no seed keeps its label from a later stage. -/
theorem SearchStage.label {um : UnassignedMethod} {base seeds : List Nat} {R : Option F} {Q : List Nat} {L L' : Nat → Option Nat} (h : SearchStage A n um base seeds R Q L L')
    {v i : Nat} (hv : v < n) (hL : L v = none) (hL' : L' v = some i) :
    v ∈ Q ∧ ((um = .closestAssigned ∧ ∃ x ∈ base, L x = some i ∧ A base 1 R v (some [x])) ∨ (um = .closestSeed ∧ ∃ x ∈ seeds, L x = some i ∧ A seeds 1 R v (some [x]))) := by
  have key : ∀ {set : List Nat} {ans : Nat → Option (List Nat)}, Answers A set 1 R (Q.filter fun v => (L v).isNone) ans →
      (∀ v, v < n → L' v = searchLab ans L v) → v ∈ Q ∧ ∃ x ∈ set, L x = some i ∧ A set 1 R v (some [x]) := by
    intro set ans h1 h2
    have := h2 v hv
    rw [hL'] at this
    simp only [searchLab, hL] at this
    cases hav : ans v with
    | none => simp [hav] at this
    | some l =>
      obtain ⟨r1, r2, r3⟩ := h1.row v l hav
      obtain ⟨x, rfl⟩ := List.length_eq_one_iff.1 r1
      simp [hav] at this
      have hvQ : v ∈ Q.filter fun v => (L v).isNone := by
        by_contra hc
        rw [h1.none_of v hc] at hav; simp at hav
      have hc := h1.crit v hvQ
      rw [hav] at hc
      exact ⟨(List.mem_filter.1 hvQ).1, x, r3 (by simp), this.symm, hc⟩
  cases um with
  | closestAssigned =>
    obtain ⟨ans, h1, h2⟩ := h
    obtain ⟨h3, h4⟩ := key h1 h2
    exact ⟨h3, Or.inl ⟨rfl, h4⟩⟩
  | closestSeed =>
    obtain ⟨ans, h1, h2⟩ := h
    obtain ⟨h3, h4⟩ := key h1 h2
    exact ⟨h3, Or.inr ⟨rfl, h4⟩⟩
  | ignore => rw [h v hv, hL] at hL'; simp at hL'
  | anyNeighbor => rw [h v hv, hL] at hL'; simp at hL'
  | unknown => rw [h v hv, hL] at hL'; simp at hL'

/-- How a point that no seed captured was assigned in a search with radius `R`. -/
def SearchRule (A : Criterion F) (n : Nat) (rows : Nat → List Nat) (seeds : List Nat) (um : UnassignedMethod) (R : Option F) (v i : Nat) : Prop :=
  um = .closestAssigned ∧ (∃ x, CapturedBy rows seeds i x ∧ A (labelled n (seedLab rows seeds)) 1 R v (some [x])) ∨
  um = .closestSeed ∧ ∃ s, seeds[i]? = some s ∧ A seeds 1 R v (some [s])

/-- How a point that no seed captured was assigned by the digraph. -/
def ArcRule (rows : Nat → List Nat) (seeds : List Nat) (v i : Nat) : Prop :=
  ∃ x, ((rows v).find? fun a => (seedLab rows seeds a).isSome) = some x ∧ CapturedBy rows seeds i x

/-- How each label came about. -/
theorem RunData.rule (h : RunData cfg A dist n o m P lab c lost rows order L2 L3 L k l) (hS : 2 ≤ o.sizeConstraint) {v i : Nat} (hv : v < n) (hi : L v = some i) :
    CapturedBy rows (greedySeeds rows order) i v ∨
    seedLab rows (greedySeeds rows order) v = none ∧ (
      (v ∈ P ∧ UsesNng (decide (o.numTypes < 2)) o.primaryMethod ∧ ArcRule rows (greedySeeds rows order) v i) ∨
      (v ∈ P ∧ SearchRule A n rows (greedySeeds rows order) o.primaryMethod
        (stageRadius o o.primaryMethod o.primaryRadius o.primarySupplied (seedEstimate dist rows (greedySeeds rows order))) v i) ∨
      (SearchRule A n rows (greedySeeds rows order) o.secondaryMethod
        (stageRadius o o.secondaryMethod o.secondaryRadius o.secondarySupplied (seedEstimate dist rows (greedySeeds rows order))) v i)) := by
  have hsok := h.seedsOk hS
  have hf := h.facts hS
  have rule : ∀ {um : UnassignedMethod} {R : Option F} {Q : List Nat} {K K' : Nat → Option Nat},
      SearchStage A n um (labelled n (seedLab rows (greedySeeds rows order))) (greedySeeds rows order) R Q K K' →
      (∀ x j, x < n → seedLab rows (greedySeeds rows order) x = some j → K x = some j) → K v = none → K' v = some i →
      v ∈ Q ∧ SearchRule A n rows (greedySeeds rows order) um R v i := by
    intro um R Q K K' hst hkeep h1 h2
    obtain ⟨hQ, hr⟩ := hst.label hv h1 h2
    refine ⟨hQ, ?_⟩
    rcases hr with ⟨rfl, x, hx, hKx, hA⟩ | ⟨rfl, x, hx, hKx, hA⟩
    · obtain ⟨hxn, hxs⟩ := mem_labelled.1 hx
      obtain ⟨j, hj⟩ := Option.isSome_iff_exists.1 hxs
      have := hkeep x j hxn hj
      rw [hKx] at this
      simp at this
      subst this
      exact Or.inl ⟨rfl, x, (capturedBy_iff hsok).2 hj, hA⟩
    · obtain ⟨j, hj⟩ := List.mem_iff_getElem?.1 hx
      have := hkeep x j (hsok.range x hx) (hsok.seedLab hj (by simp [closedNbr]))
      rw [hKx] at this
      simp at this
      subst this
      exact Or.inr ⟨rfl, x, hj, hA⟩
  cases h1 : seedLab rows (greedySeeds rows order) v with
  | some j =>
    have := h.keep hv h1
    rw [hi] at this
    simp at this
    subst this
    exact Or.inl ((capturedBy_iff hsok).2 h1)
  | none =>
    refine Or.inr ⟨rfl, ?_⟩
    cases h2 : L2 v with
    | some j =>
      have := h.keep4 hv (h.keep3 hv h2)
      rw [hi] at this
      simp at this
      subst this
      left
      rw [h.staged.nng v hv] at h2
      split at h2
      · rename_i huse
        have h2' := h2
        simp only [nngLab, h1] at h2
        obtain ⟨x, hx1, hx2⟩ := Option.bind_eq_some_iff.1 h2
        have hne : rows v ≠ [] := by
          intro h0; rw [h0] at hx1; simp at hx1
        exact ⟨hf.mem v hv hne, huse, x, hx1, (capturedBy_iff hsok).2 hx2⟩
      · rw [h1] at h2; simp at h2
    | none =>
      right
      cases h3 : L3 v with
      | some j =>
        have := h.keep4 hv h3
        rw [hi] at this
        simp at this
        subst this
        left
        exact rule h.staged.first (fun x j hx hj => h.keep2 hx hj) h2 h3
      | none =>
        right
        rcases h.staged.second with h' | ⟨-, h'⟩
        · exact (rule h' (fun x j hx hj => h.keep3 hx (h.keep2 hx hj)) h3 hi).2
        · rw [h' v hv, h3] at hi; simp at hi

/-- With at least one captured point and no radius, a search stage assigns all points it is asked to. -/
theorem SearchStage.total {um : UnassignedMethod} {base seeds : List Nat} {Q : List Nat} {L L' : Nat → Option Nat} (h : SearchStage A n um base seeds none Q L L')
    (hum : um = .closestAssigned ∨ um = .closestSeed) (hb : ∀ x ∈ base, (L x).isSome) (hs : ∀ x ∈ seeds, (L x).isSome) {v : Nat} (hv : v < n) (hQ : v ∈ Q) : (L' v).isSome := by
  have key : ∀ {set : List Nat} {ans : Nat → Option (List Nat)}, (∀ x ∈ set, (L x).isSome) → Answers A set 1 none (Q.filter fun v => (L v).isNone) ans →
      (∀ v, v < n → L' v = searchLab ans L v) → (L' v).isSome := by
    intro set ans hset h1 h2
    rw [h2 v hv]
    unfold searchLab
    cases hL : L v with
    | some j => rfl
    | none =>
      have hne := h1.all rfl v (List.mem_filter.2 ⟨hQ, by simp [hL]⟩)
      obtain ⟨l, hl⟩ := Option.ne_none_iff_exists'.1 hne
      obtain ⟨r1, -, r3⟩ := h1.row v l hl
      obtain ⟨x, rfl⟩ := List.length_eq_one_iff.1 r1
      simpa [hl] using hset x (r3 (by simp))
  rcases hum with rfl | rfl
  · obtain ⟨ans, h1, h2⟩ := h; exact key hb h1 h2
  · obtain ⟨ans, h1, h2⟩ := h; exact key hs h1 h2

theorem RunData.base_some (h : RunData cfg A dist n o m P lab c lost rows order L2 L3 L k l) {x : Nat} (hx : x ∈ labelled n (seedLab rows (greedySeeds rows order))) : (L2 x).isSome := by
  obtain ⟨h1, h2⟩ := mem_labelled.1 hx
  obtain ⟨j, hj⟩ := Option.isSome_iff_exists.1 h2
  rw [h.keep2 h1 hj]; rfl

theorem RunData.seeds_some (h : RunData cfg A dist n o m P lab c lost rows order L2 L3 L k l) (hS : 2 ≤ o.sizeConstraint) {x : Nat} (hx : x ∈ greedySeeds rows order) : (L2 x).isSome := by
  have hsok := h.seedsOk hS
  obtain ⟨j, hj⟩ := List.mem_iff_getElem?.1 hx
  rw [h.keep2 (hsok.range x hx) (hsok.seedLab hj (by simp [closedNbr]))]; rfl

/-- Without seed radius each primary point has a neighbourhood, so it is captured or has a captured neighbour. -/
theorem RunData.near (h : RunData cfg A dist n o m P lab c lost rows order L2 L3 L k l) (hS : 2 ≤ o.sizeConstraint) (hR : seedLimit o = none) {v : Nat} (hvn : v < n) (hv : v ∈ P) :
    ∃ x ∈ closedNbr rows v, (seedLab rows (greedySeeds rows order) x).isSome := by
  have hf := h.facts hS
  have hne : rows v ≠ [] := by
    obtain ⟨rows₀, hn₀, he⟩ := h.nng
    rw [he, Ne, stored_eq_nil]
    rcases hn₀ with ⟨-, ans, h1, h2⟩ | ⟨-, h1⟩
    · obtain ⟨l, hl⟩ := Option.ne_none_iff_exists'.1 (h1.all hR v hv)
      obtain ⟨r1, r2, -⟩ := h1.row v l hl
      rw [h2 v hvn]
      intro h0
      have := length_nbrs (v := v) r2
      simp [ansRows, hl] at h0
      rw [h0] at this
      simp at this
      omega
    · intro h0; exact (h1.infeasible v hv h0).1 hR
  obtain ⟨s, hs, x, hx1, hx2⟩ := greedySeeds_maximal v (h.perm.mem_iff.2 (List.mem_range.2 hvn)) hne
  refine ⟨x, hx1, ?_⟩
  obtain ⟨j, hj⟩ := List.mem_iff_getElem?.1 hs
  rw [(h.seedsOk hS).seedLab hj hx2]; rfl

theorem RunData.primary_assigned (h : RunData cfg A dist n o m P lab c lost rows order L2 L3 L k l) (hS : 2 ≤ o.sizeConstraint) (hR : seedLimit o = none)
    (hR1 : o.primaryRadius = .noRadius ∨ o.primaryRadius = .useSeedRadius) (hum : o.primaryMethod = .anyNeighbor ∨ o.primaryMethod = .closestAssigned ∨ o.primaryMethod = .closestSeed)
    {v : Nat} (hvn : v < n) (hv : v ∈ P) : (L v).isSome := by
  have hsome : (L3 v).isSome → (L v).isSome := by
    intro hs
    obtain ⟨j, hj⟩ := Option.isSome_iff_exists.1 hs
    rw [h.keep4 hvn hj]; rfl
  apply hsome
  have h2 : UsesNng (decide (o.numTypes < 2)) o.primaryMethod → (L3 v).isSome := by
    intro hu
    obtain ⟨x, hx1, hx2⟩ := h.near hS hR hvn hv
    have : (L2 v).isSome := by
      rw [h.staged.nng v hvn, if_pos hu, nngLab_isSome]
      rcases List.mem_cons.1 hx1 with rfl | hx1
      · exact Or.inl hx2
      · exact Or.inr ⟨x, hx1, hx2⟩
    obtain ⟨j, hj⟩ := Option.isSome_iff_exists.1 this
    rw [h.keep3 hvn hj]; rfl
  have hrad : ∀ um, um = o.primaryMethod → stageRadius o o.primaryMethod o.primaryRadius o.primarySupplied (seedEstimate dist rows (greedySeeds rows order)) = none := by
    rintro um rfl
    rcases hR1 with h | h <;> rw [h] <;> cases o.primaryMethod <;> simp [stageRadius, hR]
  have hst := h.staged.first
  rw [hrad _ rfl] at hst
  rcases hum with hum | hum
  · exact h2 (by unfold UsesNng; exact Or.inl hum)
  · exact hst.total hum (fun x hx => h.base_some hx) (fun x hx => h.seeds_some hS hx) hvn hv

theorem RunData.all_assigned (h : RunData cfg A dist n o m P lab c lost rows order L2 L3 L k l) (hS : 2 ≤ o.sizeConstraint) (hlost : ¬ lost)
    (hR2 : stageRadius o o.secondaryMethod o.secondaryRadius o.secondarySupplied (seedEstimate dist rows (greedySeeds rows order)) = none)
    (hum : o.secondaryMethod = .closestAssigned ∨ o.secondaryMethod = .closestSeed) {v : Nat} (hvn : v < n) : (L v).isSome := by
  rcases h.staged.second with hst | ⟨h', -⟩
  · rw [hR2] at hst
    have hs : ∀ x, x < n → (L2 x).isSome → (L3 x).isSome := by
      intro x hx h2
      obtain ⟨j, hj⟩ := Option.isSome_iff_exists.1 h2
      rw [h.keep3 hx hj]; rfl
    exact hst.total hum (fun x hx => hs x (mem_labelled.1 hx).1 (h.base_some hx)) (fun x hx => hs x ((h.seedsOk hS).range x hx) (h.seeds_some hS hx)) hvn (List.mem_range.2 hvn)
  · exact absurd h' hlost

end

end Scc
