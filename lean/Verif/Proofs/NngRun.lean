/-
The whole of `scc_sc_clustering` for the methods that build a nearest neighbour digraph.
-/
import Verif.Proofs.Estimate
import Verif.Spec.Clustering
import Verif.Proofs.Options
import Verif.Model.NngClustering
import Verif.Proofs.SeedsFind
import Verif.Proofs.LabelsM
import Verif.Proofs.NngSort

set_option linter.unusedSimpArgs false
set_option linter.unusedVariables false

namespace Scc

variable {F : Type}

/-- What all digraphs have in common. -/
structure NngFacts (n S : Nat) (P : List Nat) (rows : Nat → List Nat) : Prop where
  nodup : ∀ v, v < n → (rows v).Nodup ∧ v ∉ rows v
  range : ∀ v, v < n → ∀ a ∈ rows v, a < n
  mem : ∀ v, v < n → rows v ≠ [] → v ∈ P
  low : ∀ v, v < n → rows v ≠ [] → S ≤ (rows v).length + 1
  high : ∀ v, v < n → (rows v).length ≤ S

theorem SizeNng.facts {A : Criterion F} {n S : Nat} {R : Option F} {P : List Nat} {rows : Nat → List Nat} (h : SizeNng A n S R P rows) (hS : 2 ≤ S) : NngFacts n S P rows := by
  obtain ⟨ans, h1, h2⟩ := h
  have key : ∀ v, v < n → rows v = [] ∨ ∃ l, v ∈ P ∧ ans v = some l ∧ l.length = S ∧ l.Nodup ∧ l ⊆ List.range n ∧ rows v = nbrs v l := by
    intro v hv
    cases ha : ans v with
    | none => left; rw [h2 v hv]; simp [ansRows, ha, nbrs]
    | some l =>
      right
      obtain ⟨r1, r2, r3⟩ := h1.row v l ha
      refine ⟨l, ?_, rfl, r1, r2, r3, by rw [h2 v hv]; simp [ansRows, ha]⟩
      by_contra hvP
      rw [h1.none_of v hvP] at ha; simp at ha
  refine ⟨fun v hv => ?_, fun v hv a ha => ?_, fun v hv hne => ?_, fun v hv hne => ?_, fun v hv => ?_⟩
  · rcases key v hv with h | ⟨l, -, -, -, r2, -, h⟩
    · rw [h]; simp
    · rw [h]; exact ⟨nodup_nbrs r2, not_mem_nbrs⟩
  · rcases key v hv with h | ⟨l, -, -, -, -, r3, h⟩
    · rw [h] at ha; simp at ha
    · rw [h] at ha; exact List.mem_range.1 (r3 (nbrs_subset ha))
  · rcases key v hv with h | ⟨l, hP, -⟩
    · exact absurd h hne
    · exact hP
  · rcases key v hv with h | ⟨l, -, -, r1, r2, -, h⟩
    · exact absurd h hne
    · rw [h, length_nbrs r2]; omega
  · rcases key v hv with h | ⟨l, -, -, r1, r2, -, h⟩
    · rw [h]; simp
    · rw [h, length_nbrs r2]; omega

theorem length_firstOcc_single {v : Nat} {W : List Nat} (hn : W.Nodup) : W.length ≤ (firstOcc [v] W).length + 1 := by
  have h : W ⊆ v :: firstOcc [v] W := by
    intro x hx
    by_cases hxv : x = v
    · simp [hxv]
    · exact List.mem_cons_of_mem _ (mem_firstOcc.2 ⟨hx, by simpa using hxv⟩)
  have := (List.subperm_of_subset hn h).length_le
  simpa using this

theorem TypeNng.facts {A : Criterion F} {n S : Nat} {R : Option F} {lab c : Nat → Nat} {T : Nat} {P : List Nat} {rows : Nat → List Nat} (h : TypeNng A n S R lab c T P rows) : NngFacts n S P rows := by
  refine ⟨fun v hv => ?_, fun v hv a ha => ?_, fun v hv hne => ?_, fun v hv hne => ?_, fun v hv => ?_⟩
  · rcases h.row v hv with h | ⟨-, W, hW, h⟩
    · rw [h]; simp
    · rw [h]
      refine ⟨nodup_firstOcc, fun hm => ?_⟩
      have := (mem_firstOcc.1 hm).2
      simp at this
  · rcases h.row v hv with h | ⟨-, W, hW, h⟩
    · rw [h] at ha; simp at ha
    · rw [h] at ha; exact hW.range a (mem_firstOcc.1 ha).1
  · rcases h.row v hv with h | ⟨hP, -⟩
    · exact absurd h hne
    · exact hP
  · rcases h.row v hv with h | ⟨-, W, hW, h⟩
    · exact absurd h hne
    · rw [h, ← hW.len]; exact length_firstOcc_single hW.nodup
  · rcases h.row v hv with h | ⟨-, W, hW, h⟩
    · rw [h]; simp
    · rw [h, ← hW.len]; exact firstOcc_length_le

theorem NngOf.facts {A : Criterion F} {n : Nat} {o : Options F} {P : List Nat} {lab c : Nat → Nat} {rows : Nat → List Nat} (h : NngOf A n o P lab c rows) (hS : 2 ≤ o.sizeConstraint) :
    NngFacts n o.sizeConstraint P rows := by
  rcases h with ⟨-, h⟩ | ⟨-, h⟩
  · exact h.facts hS
  · exact h.facts

theorem NngFacts.stored {n S : Nat} {P : List Nat} {rows₀ rows : Nat → List Nat} (h : NngFacts n S P rows₀) {cfg : Cfg} (he : ∀ v, rows v = stored cfg (rows₀ v)) : NngFacts n S P rows where
  nodup := fun v hv => by rw [he, nodup_stored, mem_stored]; exact h.nodup v hv
  range := fun v hv a ha => by rw [he, mem_stored] at ha; exact h.range v hv a ha
  mem := fun v hv hne => h.mem v hv (by rwa [he, Ne, stored_eq_nil] at hne)
  low := fun v hv hne => by rw [he, Ne, stored_eq_nil] at hne; rw [he, length_stored]; exact h.low v hv hne
  high := fun v hv => by rw [he, length_stored]; exact h.high v hv

theorem NngStored.facts {cfg : Cfg} {A : Criterion F} {n : Nat} {o : Options F} {P : List Nat} {lab c : Nat → Nat} {rows : Nat → List Nat} (h : NngStored cfg A n o P lab c rows)
    (hS : 2 ≤ o.sizeConstraint) : NngFacts n o.sizeConstraint P rows := by
  obtain ⟨rows₀, h1, h2⟩ := h
  exact (h1.facts hS).stored h2

/-- Without `SCC_STABLE_NNG` the digraph is stored as it is. -/
theorem NngStored.off {cfg : Cfg} {A : Criterion F} {n : Nat} {o : Options F} {P : List Nat} {lab c : Nat → Nat} {rows : Nat → List Nat} (h : NngStored cfg A n o P lab c rows)
    (hst : cfg.stableNng = false) : NngOf A n o P lab c rows := by
  obtain ⟨rows₀, h1, h2⟩ := h
  obtain rfl : rows = rows₀ := by funext v; rw [h2, stored_off hst]
  exact h1

/-- Causes of failure when building the digraph. -/
def BuildCause (cfg : Cfg) (A : Criterion F) (w : World) (n : Nat) (o : Options F) (P : List Nat) (lab c : Nat → Nat) (mayRefuse : Prop) (e : ErrorCode) : Prop :=
  SysCause w (cfg.arcMax < n * o.sizeConstraint) mayRefuse e ∨ e = .noSolution ∧ NoSeeds A n o P lab c ∨
  e = .invalidInput ∧ 2 ≤ o.numTypes ∧ o.sizeConstraint < ((List.range o.numTypes).map c).sum

variable [FloatOps F]

theorem seedLimit_eq (o : Options F) : (if decide (o.seedRadius = .useSupplied) = true then some o.seedSupplied else none) = seedLimit o := by
  unfold seedLimit
  by_cases h : o.seedRadius = .useSupplied <;> simp [h]

theorem ValidOptions.primaryQ {o : Options F} {n : Nat} {P : List Nat} {lab c : Nat → Nat} (hv : ValidOptions o n P) (ha : OptionArrays n o P lab c) :
    PrimaryQ n (if (o.primary.map fun b => (⟨[], b⟩ : Arr)).isNone then n else o.lenPrimary) (o.primary.map fun b => ⟨[], b⟩) P := by
  have hn : 0 < n := by have := hv.size_two; have := hv.size_le; omega
  cases hp : o.primary with
  | none =>
    have hP := ha.all hp
    subst hP
    exact ⟨arrHolds_range n, by simp, List.pairwise_lt_range, fun q hq => List.mem_range.1 hq, by simpa using hn, rfl, by simp⟩
  | some b =>
    obtain ⟨h1, h2⟩ := ha.primary b hp
    have h3 : o.lenPrimary ≠ 0 ∧ P.Pairwise (· < ·) := by
      rcases hv.primary with h | h
      · rw [hp] at h; simp at h
      · exact h.2
    exact ⟨h2, by simpa using h1, h3.2, ha.range, by simp; omega, rfl, by simp⟩

theorem ValidOptions.primaryIs {o : Options F} {n : Nat} {P : List Nat} {lab c : Nat → Nat} (hv : ValidOptions o n P) (ha : OptionArrays n o P lab c) :
    PrimaryIs n o.lenPrimary o.primary P := by
  have h := hv.primaryQ ha
  refine ⟨h.holds, ?_, h.sorted, h.range⟩
  rw [h.len]
  cases o.primary <;> simp

/-- The end of the two functions that make the digraph. -/
theorem sortResult_spec {cfg : Cfg} {L : Multiset Nat} {w0 : World} {n : Nat} {N : (Nat → List Nat) → Prop} {r : Except ErrorCode Digraph} {w : World} {E : ErrorCode → World → Prop}
    (h : match r with
      | .error e => E e w
      | .ok d => w.fails = w0.fails ∧ w.live = d.own + L ∧ d.n = n ∧ ∃ rows, d.Repr cfg rows ∧ N rows ∧ ∃ v < n, rows v ≠ []) :
    WpM (sortResult cfg r) w fun r w' => match r with
      | .error e => E e w'
      | .ok d => w'.fails = w0.fails ∧ w'.live = d.own + L ∧ d.n = n ∧ ∃ rows, d.Repr cfg rows ∧ (∃ rows₀, N rows₀ ∧ ∀ v, rows v = stored cfg (rows₀ v)) ∧ ∃ v < n, rows v ≠ [] := by
  unfold sortResult
  rcases r with e | d
  · dsimp only at h ⊢; rw [wpM_pure]; exact h
  · dsimp only at h ⊢
    obtain ⟨h1, h2, h3, rows, h4, h5, v, h6, h7⟩ := h
    rw [wpM_bind]
    refine (sortNng_spec h4 h2).mono ?_
    rintro d' w' ⟨rfl, k2, k3, k4⟩
    rw [wpM_pure]
    exact ⟨h1, by rw [h2, k2], k3.trans h3, _, k4, ⟨rows, h5, fun _ => rfl⟩, v, h6, by simpa using h7⟩

theorem buildNng_spec {cfg : Cfg} {spi : Spi F} {n : Nat} {A : Criterion F} {dist : Nat → Nat → F} {mayRefuse : Prop} (hs : SpiOk spi n A dist mayRefuse)
    {o : Options F} {P : List Nat} {lab c : Nat → Nat} (hv : ValidOptions o n P) (ha : OptionArrays n o P lab c) (hlim : WithinLimits cfg n o c) (hpm : n ≤ cfg.pointMax) {w : World} :
    WpM (buildNng cfg spi n o) w fun r w' => match r with
      | .error e => FailPost w (BuildCause cfg A w n o P lab c mayRefuse) e w'
      | .ok d => w'.fails = w.fails ∧ w'.live = d.own + w.live ∧ d.n = n ∧ ∃ rows, d.Repr cfg rows ∧ NngStored cfg A n o P lab c rows ∧ ∃ v < n, rows v ≠ [] := by
  have hpq := hv.primaryQ ha
  have e1 := seedLimit_eq o
  unfold buildNng
  by_cases ht : o.numTypes < 2
  · rw [if_pos ht]
    have hq : QueryInput w n (if (o.primary.map fun b => (⟨[], b⟩ : Arr)).isNone then n else o.lenPrimary) (o.primary.map fun b => ⟨[], b⟩) P :=
      ⟨hpq.holds, hpq.len, hpq.sorted, hpq.range, hpq.pos, by rw [hpq.ids]; simp, hpq.all⟩
    unfold nngWithSize
    rw [wpM_bind]
    refine (nngSizeArcs_spec hs (decide (o.seedRadius = .useSupplied)) o.seedSupplied hpm hq hv.size_two hv.size_le hlim.size).mono ?_
    intro r w1 h
    refine (sortResult_spec (N := NngOf A n o P lab c) (E := FailPost w (BuildCause cfg A w n o P lab c mayRefuse)) ?_).mono fun _ _ h => h
    rcases r with e | d
    · refine h.mono fun hc => ?_
      rcases hc with hc | ⟨rfl, hc⟩
      · exact Or.inl hc
      · rw [e1] at hc
        exact Or.inr (Or.inl ⟨rfl, Or.inl ⟨ht, hc⟩⟩)
    · obtain ⟨h1, h2, h3, h4, rows, h5, h6, h7⟩ := h
      rw [e1] at h6
      exact ⟨h1, h2, h4, rows, h5, Or.inl ⟨ht, h6⟩, h7⟩
  · rw [if_neg ht]
    have hT : 2 ≤ o.numTypes := by omega
    obtain ⟨tcs, htcs⟩ : ∃ tcs, o.typeConstraints = some tcs := by
      rcases hv.types with h | h
      · omega
      · exact Option.ne_none_iff_exists'.1 h.2.2.1
    obtain ⟨labels, hlabels⟩ : ∃ labels, o.typeLabels = some labels := by
      rcases hv.types with h | h
      · omega
      · exact Option.ne_none_iff_exists'.1 h.2.2.2.2
    have hti : TypeInput n o.numTypes tcs labels lab c :=
      ⟨fun v hv => (ha.labels labels hT hlabels v hv).1, fun v hv => (ha.labels labels hT hlabels v hv).2, ha.constraints tcs hT htcs⟩
    obtain ⟨l1, l2⟩ := hlim.types hT
    rw [htcs, hlabels]
    unfold nngWithTypes
    rw [wpM_bind]
    refine (nngTypeArcs_spec hs hti hpq (decide (o.seedRadius = .useSupplied)) o.seedSupplied hpm (by rw [sumTo_eq_sum]; exact l2) l1 hv.size_two hv.size_le hlim.size).mono ?_
    intro r w1 h
    refine (sortResult_spec (N := NngOf A n o P lab c) (E := FailPost w (BuildCause cfg A w n o P lab c mayRefuse)) ?_).mono fun _ _ h => h
    rcases r with e | d
    · refine h.mono fun hc => ?_
      rw [e1] at hc
      rcases hc with (hc | ⟨rfl, hc⟩) | ⟨rfl, hc⟩ | ⟨rfl, hc⟩
      · exact Or.inl hc
      · exact Or.inr (Or.inl ⟨rfl, Or.inr ⟨hT, Or.inl hc⟩⟩)
      · exact Or.inr (Or.inl ⟨rfl, Or.inr ⟨hT, Or.inr hc⟩⟩)
      · rw [sumTo_eq_sum] at hc
        exact Or.inr (Or.inr ⟨rfl, hT, hc⟩)
    · obtain ⟨rows, h5, h6, h7⟩ := h.rows
      rw [e1] at h6
      exact ⟨h.fails, h.live, h.n_eq, rows, h5, Or.inr ⟨hT, h6⟩, h7⟩

theorem resolveRadius_spec (o : Options F) (hsr : o.seedRadius = .noRadius ∨ o.seedRadius = .useSupplied) (um : UnassignedMethod) (m : RadiusMethod) (r : F) :
    ((resolveRadius o um m r).1 = .useEstimated ↔ UsesEstimate um m) ∧
    ∀ est, (∀ p, useEstimate est (resolveRadius o um m r) = some p → (if decide (p.1 = .useSupplied) = true then some p.2 else none) = stageRadius o um m r est) ∧
      (useEstimate est (resolveRadius o um m r) = none → UsesEstimate um m ∧ FloatOps.lt FloatOps.zero est = false) ∧
      (useEstimate est (resolveRadius o um m r) ≠ none → UsesEstimate um m → FloatOps.lt FloatOps.zero est = true) := by
  unfold resolveRadius useEstimate UsesEstimate
  by_cases h1 : um = .ignore
  · subst h1
    refine ⟨by simp, fun est => ⟨fun p hp => ?_, by simp, by simp⟩⟩
    simp at hp; subst hp
    simp [stageRadius]
  · rw [if_neg h1]
    by_cases h2 : m = .useSeedRadius
    · subst h2
      rw [if_pos rfl]
      refine ⟨by rcases hsr with h | h <;> simp [h], fun est => ⟨fun p hp => ?_, ?_, by simp⟩⟩
      · have : p = (o.seedRadius, o.seedSupplied) := by rcases hsr with h | h <;> simp [h] at hp ⊢ <;> exact hp.symm
        subst this
        have : stageRadius o um .useSeedRadius r est = seedLimit o := by cases um <;> simp_all [stageRadius]
        rw [this]; exact seedLimit_eq o
      · intro h; rcases hsr with h' | h' <;> simp [h'] at h
    · rw [if_neg h2]
      refine ⟨by simp [h1], fun est => ⟨fun p hp => ?_, ?_, ?_⟩⟩
      · cases m <;> simp at hp h2 ⊢
        · subst hp; cases um <;> simp_all [stageRadius]
        · subst hp; cases um <;> simp_all [stageRadius]
        · obtain ⟨-, rfl⟩ := hp; cases um <;> simp_all [stageRadius]
        · subst hp; cases um <;> simp_all [stageRadius]
      · intro h
        by_cases h3 : m = .useEstimated
        · subst h3
          refine ⟨⟨h1, rfl⟩, ?_⟩
          by_contra hc
          rw [if_pos rfl, if_pos (by simpa using hc)] at h
          simp at h
        · rw [if_neg h3] at h; simp at h
      · rintro h ⟨-, rfl⟩
        by_contra hc
        rw [if_pos rfl, if_neg hc] at h
        exact h rfl

theorem estimateRadii_spec {cfg : Cfg} {spi : Spi F} {n S : Nat} {A : Criterion F} {dist : Nat → Nat → F} {mayRefuse : Prop} (hs : SpiOk spi n A dist mayRefuse)
    {o : Options F} (hsr0 : o.seedRadius = .noRadius ∨ o.seedRadius = .useSupplied)
    {sr : SeedResult} {nng : Digraph} {rows : Nat → List Nat} {seeds : List Nat} (hsr : sr.Holds seeds) (hr : nng.Repr cfg rows) (hn : nng.n = n)
    (hrow : SeedRows n S rows seeds) {w : World} {L : Multiset Nat} (hlive : w.live = ptrOwn sr.seeds + L) (hnl : ∀ i ∈ nng.ids, i ∈ w.live) :
    WpM (estimateRadii spi sr nng S (resolveRadius o o.primaryMethod o.primaryRadius o.primarySupplied) (resolveRadius o o.secondaryMethod o.secondaryRadius o.secondarySupplied)) w
      fun r w' => match r with
      | .error e => FailPost { w with live := L } (fun e => SysCause w False mayRefuse e ∨ e = .noSolution ∧ BadEstimate dist o rows seeds) e w'
      | .ok (r1, r2) => w'.fails = w.fails ∧ w'.live = w.live ∧ ¬ BadEstimate dist o rows seeds ∧
          (if decide (r1.1 = .useSupplied) = true then some r1.2 else none) = stageRadius o o.primaryMethod o.primaryRadius o.primarySupplied (seedEstimate dist rows seeds) ∧
          (if decide (r2.1 = .useSupplied) = true then some r2.2 else none) = stageRadius o o.secondaryMethod o.secondaryRadius o.secondarySupplied (seedEstimate dist rows seeds) := by
  obtain ⟨p1, p2⟩ := resolveRadius_spec o hsr0 o.primaryMethod o.primaryRadius o.primarySupplied
  obtain ⟨q1, q2⟩ := resolveRadius_spec o hsr0 o.secondaryMethod o.secondaryRadius o.secondarySupplied
  generalize resolveRadius o o.primaryMethod o.primaryRadius o.primarySupplied = r1 at *
  generalize resolveRadius o o.secondaryMethod o.secondaryRadius o.secondarySupplied = r2 at *
  have hsl : ∀ i ∈ ptrIds sr.seeds, i ∈ w.live := by
    obtain ⟨b, hb, -⟩ := hsr.block
    intro i hi
    rw [hlive, hb]
    rw [hb] at hi
    simp [ptrIds] at hi
    subst hi
    simp
  unfold estimateRadii
  by_cases huse : r1.1 = .useEstimated ∨ r2.1 = .useEstimated
  · rw [if_pos huse, wpM_bind]
    have huse' : UsesEstimate o.primaryMethod o.primaryRadius ∨ UsesEstimate o.secondaryMethod o.secondaryRadius := huse.imp p1.1 q1.1
    refine (estimateAvg_spec hs hsr hr hn hrow hsl hnl).mono ?_
    rintro (e | avg) w1 h
    · dsimp only
      rw [wpM_bind]
      refine wpM_freePtr L (by rw [h.live, hlive]) fun w2 k1 k2 k3 => ?_
      rw [wpM_pure]
      exact ⟨by rw [k1, h.fails], k2, by rw [k3, h.err], Or.inl h.cause⟩
    · obtain ⟨h1, h2, h3, rfl⟩ := h
      obtain ⟨p3, p4, p5⟩ := p2 (seedEstimate dist rows seeds)
      obtain ⟨q3, q4, q5⟩ := q2 (seedEstimate dist rows seeds)
      dsimp only
      cases hu1 : useEstimate (seedEstimate dist rows seeds) r1 with
      | none =>
        dsimp only
        rw [wpM_bind]
        refine wpM_freePtr L (by rw [h2, hlive]) fun w2 k1 k2 k3 => ?_
        exact wpM_fail fun w3 l1 l2 l3 => ⟨by rw [l1, k1, h1], by rw [l2, k2], by rw [l3], Or.inr ⟨rfl, huse', (p4 hu1).2⟩⟩
      | some r1' =>
        dsimp only
        cases hu2 : useEstimate (seedEstimate dist rows seeds) r2 with
        | none =>
          dsimp only
          rw [wpM_bind]
          refine wpM_freePtr L (by rw [h2, hlive]) fun w2 k1 k2 k3 => ?_
          exact wpM_fail fun w3 l1 l2 l3 => ⟨by rw [l1, k1, h1], by rw [l2, k2], by rw [l3], Or.inr ⟨rfl, huse', (q4 hu2).2⟩⟩
        | some r2' =>
          dsimp only
          rw [wpM_pure]
          refine ⟨h1, h2, ?_, p3 _ hu1, q3 _ hu2⟩
          rintro ⟨hb1, hb2⟩
          rcases hb1 with hb | hb
          · rw [p5 (by rw [hu1]; simp) hb] at hb2; simp at hb2
          · rw [q5 (by rw [hu2]; simp) hb] at hb2; simp at hb2
  · rw [if_neg huse, wpM_pure]
    push Not at huse
    obtain ⟨p3, p4, p5⟩ := p2 (seedEstimate dist rows seeds)
    obtain ⟨q3, q4, q5⟩ := q2 (seedEstimate dist rows seeds)
    refine ⟨rfl, rfl, ?_, p3 r1 (by unfold useEstimate; rw [if_neg huse.1]), q3 r2 (by unfold useEstimate; rw [if_neg huse.2])⟩
    rintro ⟨hb1, -⟩
    rcases hb1 with hb | hb
    · exact huse.1 (p1.2 hb)
    · exact huse.2 (q1.2 hb)

end Scc
