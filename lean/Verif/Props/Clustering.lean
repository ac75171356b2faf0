/-
Properties of `scc_sc_clustering` with the seed methods that build a nearest neighbour digraph: C01, C02, C05-C08, C10, C33, C42 and C43.

All theorems are about one call for the clustering object `ob`, with options `o`, in the state `w` of memory. `CallOk` (Spec/Clustering.lean) lists the preconditions of a
call. `SpiOk spi n A dist mayRefuse` (Spec/Spi.lean) says that the distance functions work as documented; `A` is what is known about answers to nearest neighbour queries.
`mayRefuse` says whether the distance functions may report failure without a reason.
-/
import Verif.Proofs.RunOk

set_option linter.unusedSimpArgs false
set_option linter.unusedVariables false

namespace Scc

variable {F : Type} [FloatOps F]

/-- The call has no undefined behaviour. If it returns "ok", the clustering object is initialized and has a label array (both are live), and the number of clusters and
the labels satisfy `Q`. -/
def OnSuccess (cfg : Cfg) (spi : Spi F) (o : Options F) (ob : ClObj) (w : World) (Q : Nat → Buf Int → Prop) : Prop :=
  ∃ e p w', scClustering cfg spi o (some ob) w = some ((e, p), w') ∧
    (e = .ok → w'.fails = w.fails ∧ ∃ cl b, p = some ⟨ob.id, cl⟩ ∧ cl.n = ob.cl.n ∧ cl.label = some b ∧ {ob.id} + {b.id} ≤ w'.live ∧ cl.isInitialized cfg = true ∧
      Q cl.numClusters b.buf)

theorem two_live {i j : Nat} {L M W : Multiset Nat} (h : {i} + L ≤ W) (hW : W = L + M) : {i} + {j} ≤ {j} + M := by
  rw [hW, add_comm {i} L] at h
  rw [add_comm]
  exact Multiset.add_le_add_left (Multiset.le_of_add_le_add_left h)

theorem Labelled.initialized {cfg : Cfg} {cl cl' : Clustering} {k id : Nat} {l : Buf Int} (h : Labelled cl k id l cl') (hi : cl.isInitialized cfg = true) (hk : k ≤ cfg.clabelMax) :
    cl'.isInitialized cfg = true := by
  obtain ⟨h1, h2, h3, h4, h5⟩ := isInitialized_iff.1 hi
  rw [h.eq]
  exact isInitialized_iff.2 ⟨h1, h2, h3, hk, fun _ => nofun⟩

/-- A successful call is described by `RunData`. -/
theorem onSuccess_of_run {cfg : Cfg} {spi : Spi F} {A : Criterion F} {dist : Nat → Nat → F} {mayRefuse : Prop} {o : Options F} {ob : ClObj}
    (hs : SpiOk spi ob.cl.n A dist mayRefuse) {P : List Nat} {lab c : Nat → Nat} {w : World} (hc : CallOk cfg o ob P lab c w) {m : SeedMethod} (hm : o.seedMethod = .method m)
    {Q : Nat → Buf Int → Prop} (h : ∀ rows order L2 L3 L k l, ValidOptions o ob.cl.n P →
      RunData cfg A dist ob.cl.n o m P lab c (¬ w.NoFail ∨ mayRefuse) rows order L2 L3 L k l → Q k l) : OnSuccess cfg spi o ob w Q := by
  obtain ⟨⟨e, p⟩, w', h1, h2⟩ := scClustering_spec hs hc hm
  refine ⟨e, p, w', h1, ?_⟩
  rintro rfl
  rcases h2 with h2 | ⟨hacc, hf, M, cl', hlive, hp, h2⟩
  · exact absurd rfl h2.ne_ok
  · dsimp only at hp
    cases h2 with
    | done _ _ rows order L2 L3 L id l data lab' live =>
      refine ⟨hf, cl', ⟨id, l⟩, hp, ?_, ?_, ?_, lab'.initialized hacc.initialized data.cap, h _ _ _ _ _ _ _ hacc.options data⟩
      · rw [lab'.eq]
      · rw [lab'.eq]
      · rw [live]; exact two_live hc.live hlive
    | early _ _ _ leak cause unt err live leaked => exact absurd rfl cause.ne_ok
    | late _ _ _ L id l cause err search labels lt pos cap lab' live => exact absurd rfl cause.ne_ok

/-- C01. -/
theorem C01_size_constraint {cfg : Cfg} {spi : Spi F} {A : Criterion F} {dist : Nat → Nat → F} {mayRefuse : Prop} {o : Options F} {ob : ClObj}
    (hs : SpiOk spi ob.cl.n A dist mayRefuse) {P : List Nat} {lab c : Nat → Nat} {w : World} (hc : CallOk cfg o ob P lab c w) {m : SeedMethod} (hm : o.seedMethod = .method m) :
    OnSuccess cfg spi o ob w fun k b => 1 ≤ k ∧ ValidLabels cfg b ob.cl.n k ∧ ∀ i, i < k → o.sizeConstraint ≤ (members b ob.cl.n i).length :=
  onSuccess_of_run hs hc hm fun rows order L2 L3 L k l hv h =>
    ⟨by rw [h.count]; exact List.length_pos_iff.2 h.seeds_ne, h.labels.valid (h.lt hv.size_two), fun i hi => h.size_le hc.config hv.size_two hi⟩

/-- The call returns "ok" for six points on a line: clusters {0, 1, 2} and {3, 4, 5}. -/
example : CallOk sampleCfg (lineOpts .anyNeighbor .useSeedRadius 0) lineObj (List.range 6) (fun _ => 0) (fun _ => 0) (sampleWorld [5]) ∧
    ∃ cl b w', scClustering sampleCfg (builtinSpi (some lineData)) (lineOpts .anyNeighbor .useSeedRadius 0) (some lineObj) (sampleWorld [5]) = some ((.ok, some ⟨5, cl⟩), w') ∧
      cl.numClusters = 2 ∧ cl.label = some b ∧ b.buf.read 6 = some [0, 0, 0, 1, 1, 1] :=
  ⟨line_call _ _ _, line_run (Or.inl rfl) ⟨nofun, nofun⟩ nofun⟩

/-- C02. -/
theorem C02_type_constraints {cfg : Cfg} {spi : Spi F} {A : Criterion F} {dist : Nat → Nat → F} {mayRefuse : Prop} {o : Options F} {ob : ClObj}
    (hs : SpiOk spi ob.cl.n A dist mayRefuse) {P : List Nat} {lab c : Nat → Nat} {w : World} (hc : CallOk cfg o ob P lab c w) {m : SeedMethod} (hm : o.seedMethod = .method m)
    (ht : 2 ≤ o.numTypes) :
    OnSuccess cfg spi o ob w fun k b => 1 ≤ k ∧ ValidLabels cfg b ob.cl.n k ∧ ∀ i, i < k →
      o.sizeConstraint ≤ (members b ob.cl.n i).length ∧ ∀ t, t < o.numTypes → c t ≤ (members b ob.cl.n i).countP fun v => lab v = t := by
  refine onSuccess_of_run hs hc hm fun rows order L2 L3 L k l hv h =>
    ⟨by rw [h.count]; exact List.length_pos_iff.2 h.seeds_ne, h.labels.valid (h.lt hv.size_two), fun i hi => ⟨h.size_le hc.config hv.size_two hi, fun t htt => ?_⟩⟩
  obtain ⟨s, h1, h2, h3⟩ := h.seed_of_lt hv.size_two hi
  obtain ⟨rows₀, hn₀, he⟩ := h.nng
  rcases hn₀ with ⟨hlt, -⟩ | ⟨-, hn⟩
  · omega
  · rcases hn.row s h2 with h0 | ⟨-, W, hW, hrow⟩
    · exact absurd (by rw [he, h0, stored_nil]) h3
    · refine (hW.types t htt).trans ?_
      have hsub : W ⊆ members l ob.cl.n i := by
        refine List.Subset.trans ?_ (h.closed_subset hc.config hv.size_two h1)
        intro x hx
        by_cases hxs : x = s
        · simp [closedNbr, hxs]
        · exact List.mem_cons_of_mem _ (by rw [he, mem_stored, hrow]; exact mem_firstOcc.2 ⟨hx, by simpa using hxs⟩)
      rw [List.countP_eq_length_filter, List.countP_eq_length_filter]
      exact (List.subperm_of_subset (hW.nodup.filter _) fun x hx => by
        rw [List.mem_filter] at hx ⊢; exact ⟨hsub hx.1, hx.2⟩).length_le

/-- Options that ask for a point of each of two types in every cluster. -/
def typeOpts : Options Int :=
  { (defaultOptions : Options Int) with sizeConstraint := 2, numTypes := 2, typeConstraints := some (Buf.ofList [1, 1]), lenTypeLabels := 6, typeLabels := some (Buf.ofList [0, 1, 0, 1, 0, 1]) }

theorem typeOpts_arrays : OptionArrays 6 typeOpts (List.range 6) (fun v => v % 2) (fun _ => 1) where
  all := fun _ => rfl
  primary := nofun
  range := fun x hx => List.mem_range.1 hx
  labels := by
    intro b _ h v hv
    cases h
    revert v
    decide
  constraints := by
    intro b _ h t ht
    cases h
    revert t
    decide

example : LineOk typeOpts := by
  refine line_ok (P := List.range 6) (lab := fun v => v % 2) (c := fun _ => 1) (m := .lexical) ?_ typeOpts_arrays ⟨by decide, fun _ => ⟨⟨0, by decide⟩, by decide⟩⟩ rfl
    (by decide) ?_ ?_ (fun _ => by decide)
  · exact ⟨rfl, by decide, by decide, Or.inr ⟨by decide, by decide, nofun, by decide, nofun⟩, nofun, Or.inl ⟨rfl, rfl⟩, nofun, Or.inl rfl, ⟨Or.inl rfl, nofun, nofun⟩, ⟨nofun, nofun⟩,
      ⟨nofun, nofun⟩, nofun⟩
  · rintro (⟨h, -⟩ | ⟨-, ⟨h, -⟩ | ⟨t, ht, h⟩⟩)
    · exact absurd h (by decide)
    · exact h rfl
    · exact absurd h (by revert t; decide)
  · rintro rows order - - ⟨⟨-, h⟩ | ⟨h, -⟩, -⟩
    · cases h
    · exact h rfl

/-- C05. -/
theorem C05_primary_assigned {cfg : Cfg} {spi : Spi F} {A : Criterion F} {dist : Nat → Nat → F} {mayRefuse : Prop} {o : Options F} {ob : ClObj}
    (hs : SpiOk spi ob.cl.n A dist mayRefuse) {P : List Nat} {lab c : Nat → Nat} {w : World} (hc : CallOk cfg o ob P lab c w) {m : SeedMethod} (hm : o.seedMethod = .method m)
    (h1 : o.seedRadius = .noRadius) (h2 : o.primaryRadius = .noRadius ∨ o.primaryRadius = .useSeedRadius)
    (h3 : o.primaryMethod = .anyNeighbor ∨ o.primaryMethod = .closestAssigned ∨ o.primaryMethod = .closestSeed) :
    OnSuccess cfg spi o ob w fun k b => ∀ v ∈ P, ∃ i, i < k ∧ v ∈ members b ob.cl.n i := by
  refine onSuccess_of_run hs hc hm fun rows order L2 L3 L k l hv h v hvP => ?_
  have hvn := hc.arrays.range v hvP
  obtain ⟨i, hi⟩ := Option.isSome_iff_exists.1 (h.primary_assigned hv.size_two (by simp [seedLimit, h1]) h2 h3 hvn hvP)
  have hik := h.lt hv.size_two v i hvn hi
  exact ⟨i, hik, mem_members.2 ⟨hvn, (h.labels.get_eq hc.config (h.lt hv.size_two) h.cap hvn hik).2 hi⟩⟩

example : OnSuccess sampleCfg (builtinSpi (some lineData)) (lineOpts .anyNeighbor .useSeedRadius 0) lineObj (sampleWorld [5])
    fun k b => ∀ v ∈ List.range 6, ∃ i, i < k ∧ v ∈ members b 6 i :=
  C05_primary_assigned lineSpi_ok (line_call _ _ _) (m := .lexical) rfl rfl (Or.inr rfl) (Or.inl rfl)

/-- C06, first part: with a secondary method and no radius for it every point is assigned, if neither allocation nor search fails. -/
theorem C06_secondary_assigned {cfg : Cfg} {spi : Spi F} {A : Criterion F} {dist : Nat → Nat → F} {o : Options F} {ob : ClObj}
    (hs : SpiOk spi ob.cl.n A dist False) {P : List Nat} {lab c : Nat → Nat} {w : World} (hc : CallOk cfg o ob P lab c w) {m : SeedMethod} (hm : o.seedMethod = .method m)
    (hw : w.NoFail) (h1 : o.secondaryMethod = .closestAssigned ∨ o.secondaryMethod = .closestSeed)
    (h2 : o.secondaryRadius = .noRadius ∨ o.secondaryRadius = .useSeedRadius ∧ o.seedRadius = .noRadius) :
    OnSuccess cfg spi o ob w fun k b => ∀ v, v < ob.cl.n → ∃ i, i < k ∧ v ∈ members b ob.cl.n i := by
  refine onSuccess_of_run hs hc hm fun rows order L2 L3 L k l hv h v hvn => ?_
  have hR : ∀ est, stageRadius o o.secondaryMethod o.secondaryRadius o.secondarySupplied est = none := by
    intro est
    rcases h2 with h2 | ⟨h2, h3⟩
    · rw [h2]; cases o.secondaryMethod <;> rfl
    · rw [h2]; cases o.secondaryMethod <;> simp [stageRadius, seedLimit, h3]
  obtain ⟨i, hi⟩ := Option.isSome_iff_exists.1 (h.all_assigned hv.size_two (by simp [hw]) (hR _) h1 hvn)
  have hik := h.lt hv.size_two v i hvn hi
  exact ⟨i, hik, mem_members.2 ⟨hvn, (h.labels.get_eq hc.config (h.lt hv.size_two) h.cap hvn hik).2 hi⟩⟩

/-- Options with the primary points 0, 2 and 3; other points join the cluster of the closest seed, or are ignored. -/
def primaryOpts (um : UnassignedMethod) : Options Int :=
  { (defaultOptions : Options Int) with sizeConstraint := 2, lenPrimary := 3, primary := some (Buf.ofList [0, 2, 3]), secondaryMethod := um, secondaryRadius := .noRadius }

theorem primaryOpts_arrays (um : UnassignedMethod) : OptionArrays 6 (primaryOpts um) [0, 2, 3] (fun _ => 0) (fun _ => 0) where
  all := nofun
  primary := by
    intro b h
    cases h
    exact ⟨rfl, fun i x h => by rw [Buf.get_ofList]; exact h⟩
  range := by decide
  labels := fun b h => absurd h (by show ¬ 2 ≤ 0; decide)
  constraints := fun b h => absurd h (by show ¬ 2 ≤ 0; decide)

theorem primaryOpts_ok {um : UnassignedMethod} (h : um = .ignore ∨ um = .closestSeed) : LineOk (primaryOpts um) := by
  refine line_ok (P := [0, 2, 3]) (lab := fun _ => 0) (c := fun _ => 0) (m := .lexical) ?_ (primaryOpts_arrays um)
    ⟨by show 6 * 2 ≤ 2 ^ 64 - 1; decide, fun h => absurd h (by show ¬ 2 ≤ 0; decide)⟩ rfl (by decide) ?_ ?_ (fun h => absurd h (by show ¬ 2 ≤ 0; decide))
  · exact ⟨rfl, le_refl 2, by show 2 ≤ 6; decide, Or.inl ⟨by show 0 < 2; decide, rfl, rfl, rfl⟩, nofun, Or.inr ⟨nofun, by show 3 ≠ 0; decide, by decide⟩, nofun,
      by rcases h with h | h <;> simp [primaryOpts, h], ⟨Or.inl rfl, nofun, nofun⟩, ⟨nofun, nofun⟩, ⟨nofun, nofun⟩, nofun⟩
  · rintro (⟨-, h, -⟩ | ⟨h, -⟩)
    · exact h rfl
    · exact absurd h (by show ¬ 2 ≤ 0; decide)
  · rintro rows order - - ⟨⟨-, h⟩ | ⟨-, h⟩, -⟩ <;> cases h

example : LineOk (primaryOpts .closestSeed) := primaryOpts_ok (Or.inr rfl)

/-- C06, second part: when secondary points are ignored, a point that is not primary is assigned only if a seed captures it. -/
theorem C06_secondary_ignored {cfg : Cfg} {spi : Spi F} {A : Criterion F} {dist : Nat → Nat → F} {mayRefuse : Prop} {o : Options F} {ob : ClObj}
    (hs : SpiOk spi ob.cl.n A dist mayRefuse) {P : List Nat} {lab c : Nat → Nat} {w : World} (hc : CallOk cfg o ob P lab c w) {m : SeedMethod} (hm : o.seedMethod = .method m)
    (h1 : o.secondaryMethod = .ignore) :
    OnSuccess cfg spi o ob w fun k b => ∃ N seeds, SeedClusters cfg A ob.cl.n o P lab c k b N seeds ∧
      ∀ v, v < ob.cl.n → v ∉ P → ∀ i, i < k → v ∈ members b ob.cl.n i → CapturedBy N seeds i v := by
  refine onSuccess_of_run hs hc hm fun rows order L2 L3 L k l hv h => ⟨rows, _, h.seedClusters hc.config hv.size_two, fun v hvn hvP i hi hmem => ?_⟩
  have hL := (h.labels.get_eq hc.config (h.lt hv.size_two) h.cap hvn hi).1 (mem_members.1 hmem).2
  rcases h.rule hv.size_two hvn hL with h2 | ⟨-, ⟨h2, -⟩ | ⟨h2, -⟩ | h2⟩
  · exact h2
  · exact absurd h2 hvP
  · exact absurd h2 hvP
  · rcases h2 with ⟨h2, -⟩ | ⟨h2, -⟩ <;> rw [h1] at h2 <;> cases h2

example : LineOk (primaryOpts .ignore) := primaryOpts_ok (Or.inl rfl)

/-- C07. Every label comes from the seeds or from one of the two assignment methods; with the closest methods it is the label of a nearest seed, or of a nearest
captured point. (In a build with `SCC_STABLE_NNG` the arcs are not ordered by distance, and `SCC_UM_CLOSEST_ASSIGNED` without types does not find a closest point: see
`C63_not_closest`.) -/
theorem C07_closest {cfg : Cfg} {spi : Spi F} {le : Nat → Nat → Nat → Prop} {within : Nat → Nat → F → Prop} {dist : Nat → Nat → F} {mayRefuse : Prop} {o : Options F} {ob : ClObj}
    (hs : SpiOk spi ob.cl.n (Nearest le within) dist mayRefuse) (hrefl : ∀ q x, le q x x) {P : List Nat} {lab c : Nat → Nat} {w : World} (hc : CallOk cfg o ob P lab c w) {m : SeedMethod} (hm : o.seedMethod = .method m)
    (hst : o.numTypes < 2 → o.primaryMethod = .closestAssigned → cfg.stableNng = false) :
    OnSuccess cfg spi o ob w fun k b => ∃ N seeds, SeedClusters cfg (Nearest le within) ob.cl.n o P lab c k b N seeds ∧
      ∀ i, i < k → ∀ v ∈ members b ob.cl.n i, CapturedBy N seeds i v ∨
        (∀ j, ¬ CapturedBy N seeds j v) ∧ (v ∈ P ∧ MayJoin le N seeds o.primaryMethod v i ∨ MayJoin le N seeds o.secondaryMethod v i) := by
  refine onSuccess_of_run hs hc hm fun rows order L2 L3 L k l hv h => ⟨rows, greedySeeds rows order, h.seedClusters hc.config hv.size_two, fun i hi v hmem => ?_⟩
  obtain ⟨hvn, hget⟩ := mem_members.1 hmem
  have hsok := h.seedsOk hv.size_two
  have hf := h.facts hv.size_two
  have hL := (h.labels.get_eq hc.config (h.lt hv.size_two) h.cap hvn hi).1 hget
  have hcapn : ∀ j y, CapturedBy rows (greedySeeds rows order) j y → y ∈ labelled ob.cl.n (seedLab rows (greedySeeds rows order)) := by
    intro j y hy
    have h1 := (capturedBy_iff hsok).1 hy
    exact mem_labelled.2 ⟨(h.captured hc.config hv.size_two hy).1, by rw [h1]; rfl⟩
  have hsearch : ∀ {um : UnassignedMethod} {R : Option F}, SearchRule (Nearest le within) ob.cl.n rows (greedySeeds rows order) um R v i →
      MayJoin le rows (greedySeeds rows order) um v i := by
    rintro um R (⟨rfl, x, hx, hA⟩ | ⟨rfl, s, hs', hA⟩)
    · refine ⟨x, hx, fun j y hy => ?_⟩
      by_cases hyx : y = x
      · rw [hyx]; exact hrefl v x
      · exact hA.2.2 x (by simp) y (hcapn j y hy) (by simpa using hyx)
    · refine ⟨s, hs', fun s' hs'' => ?_⟩
      by_cases hyx : s' = s
      · rw [hyx]; exact hrefl v s
      · exact hA.2.2 s (by simp) s' hs'' (by simpa using hyx)
  rcases h.rule hv.size_two hvn hL with h2 | ⟨hnone, h2⟩
  · exact Or.inl h2
  · refine Or.inr ⟨fun j hj => ?_, ?_⟩
    · rw [(capturedBy_iff hsok).1 hj] at hnone; cases hnone
    · rcases h2 with ⟨hvP, huse, x, hx1, hx2⟩ | ⟨hvP, h2⟩ | h2
      · left
        refine ⟨hvP, ?_⟩
        have hxm : x ∈ rows v := List.mem_of_find?_eq_some hx1
        rcases huse with hum | ⟨hord, hum⟩
        · rw [hum]; exact ⟨x, hxm, hx2⟩
        · rw [hum]
          refine ⟨x, hx2, fun j y hy => ?_⟩
          have hlt : o.numTypes < 2 := by simpa using hord
          rcases h.nng.off (hst hlt hum) with ⟨-, ans, h3, h4⟩ | ⟨h3, -⟩
          swap
          · omega
          rw [h4 v hvn] at hx1 hxm
          cases hav : ans v with
          | none => simp [ansRows, hav, nbrs] at hxm
          | some a =>
            have hcr := h3.crit v hvP
            rw [hav] at hcr
            obtain ⟨-, hsorted, hnear⟩ := hcr
            simp only [ansRows, hav, Option.getD_some] at hx1 hxm
            have hyv : y ≠ v := by
              rintro rfl
              rw [(capturedBy_iff hsok).1 hy] at hnone; cases hnone
            have hyn := (h.captured hc.config hv.size_two hy).1
            have hxa := nbrs_subset hxm
            by_cases hya : y ∈ a
            · -- `x` is the first captured neighbour, so `y` comes later in the answer
              by_cases hyx : y = x
              · rw [hyx]; exact hrefl v x
              have hcy : (seedLab rows (greedySeeds rows order) y).isSome = true := by rw [(capturedBy_iff hsok).1 hy]; rfl
              obtain ⟨-, as, bs, hab, hfirst⟩ := List.find?_eq_some_iff_append.1 hx1
              have hyas : y ∉ as := by
                intro hyas
                have := hfirst y hyas
                simp [hcy] at this
              by_cases hva : v ∈ a
              · have hy' : y ∈ nbrs v a := by simp [nbrs, hva, hya, hyv]
                have hsub : (nbrs v a).Sublist a := by simp only [nbrs, hva, if_true]; exact List.filter_sublist
                have hs2 := hsorted.sublist hsub
                rw [hab] at hs2 hy'
                have hyb : y ∈ bs := by
                  rcases List.mem_append.1 hy' with h5 | h5
                  · exact absurd h5 hyas
                  · rcases List.mem_cons.1 h5 with h5 | h5
                    · exact absurd h5 hyx
                    · exact h5
                exact (List.pairwise_cons.1 (List.pairwise_append.1 hs2).2.1).1 y hyb
              · have hn : nbrs v a = a.dropLast := by simp [nbrs, hva]
                have hane : a ≠ [] := List.ne_nil_of_mem hya
                have ha := List.dropLast_append_getLast hane
                rw [hn] at hab
                rw [hab] at ha
                rw [← ha] at hsorted hya
                have hyb : y ∈ bs ++ [a.getLast hane] := by
                  rw [List.append_assoc, List.mem_append] at hya
                  rcases hya with h5 | h5
                  · exact absurd h5 hyas
                  · rw [List.cons_append] at h5
                    rcases List.mem_cons.1 h5 with h5 | h5
                    · exact absurd h5 hyx
                    · exact h5
                rw [List.append_assoc, List.cons_append] at hsorted
                exact (List.pairwise_cons.1 (List.pairwise_append.1 hsorted).2.1).1 y hyb
            · exact hnear x hxa y (List.mem_range.2 hyn) hya
      · exact Or.inl ⟨hvP, hsearch h2⟩
      · exact Or.inr (hsearch h2)

/-- The built-in search finds nearest points, so the hypothesis about the distance functions holds for it. -/
example (laws : FloatLaws F) (ds : DataSet F) (hc : ds.Complete) (hnum : ∀ i j, i < ds.n → j < ds.n → IsNum (ds.sqd i j)) :
    Nonempty (SpiOk (builtinSpi (some ds)) ds.n (Nearest ds.NoFarther ds.Within) ds.dist False) := ⟨builtinSpi_nearest laws ds hc hnum⟩

def lineSpi_nearest : SpiOk (builtinSpi (some lineData)) lineObj.cl.n (Nearest lineData.NoFarther lineData.Within) lineData.dist False :=
  builtinSpi_nearest intLaws lineData lineData_complete fun _ _ _ _ => int_isNum _

example : LineOk (primaryOpts .closestSeed) ∧ OnSuccess sampleCfg (builtinSpi (some lineData)) (primaryOpts .closestSeed) lineObj (sampleWorld [5]) fun k b =>
    ∃ N seeds, SeedClusters sampleCfg (Nearest lineData.NoFarther lineData.Within) 6 (primaryOpts .closestSeed) [0, 2, 3] (fun _ => 0) (fun _ => 0) k b N seeds ∧
      ∀ i, i < k → ∀ v ∈ members b 6 i, CapturedBy N seeds i v ∨ (∀ j, ¬ CapturedBy N seeds j v) ∧
        (v ∈ [0, 2, 3] ∧ MayJoin lineData.NoFarther N seeds .anyNeighbor v i ∨ MayJoin lineData.NoFarther N seeds .closestSeed v i) :=
  ⟨primaryOpts_ok (Or.inr rfl), C07_closest lineSpi_nearest (fun q x => by simp [DataSet.NoFarther, FloatOps.le])
    (line_callOk (primaryOpts_arrays _) ⟨by decide, fun h => absurd h (by decide)⟩) (m := .lexical) rfl fun _ _ => rfl⟩

/-- C08. With a seed radius `r`, captured points are within `r` of their seed. When the remaining primary points join clusters of neighbours and secondary points are
ignored, every other point with a label has a neighbour within `r` that was captured by the seed of the cluster. -/
theorem C08_seed_radius {cfg : Cfg} {spi : Spi F} {le : Nat → Nat → Nat → Prop} {within : Nat → Nat → F → Prop} {dist : Nat → Nat → F} {mayRefuse : Prop} {o : Options F} {ob : ClObj}
    (hs : SpiOk spi ob.cl.n (Nearest le within) dist mayRefuse) {P : List Nat} {lab c : Nat → Nat} {w : World} (hc : CallOk cfg o ob P lab c w) {m : SeedMethod} (hm : o.seedMethod = .method m)
    (hr : o.seedRadius = .useSupplied) :
    OnSuccess cfg spi o ob w fun k b => ∃ N seeds, SeedClusters cfg (Nearest le within) ob.cl.n o P lab c k b N seeds ∧
      (∀ s ∈ seeds, ∀ x ∈ N s, within s x o.seedSupplied) ∧
      (o.primaryMethod = .anyNeighbor → o.secondaryMethod = .ignore → ∀ i, i < k → ∀ v ∈ members b ob.cl.n i,
        CapturedBy N seeds i v ∨ v ∈ P ∧ ∃ x, CapturedBy N seeds i x ∧ within v x o.seedSupplied) := by
  refine onSuccess_of_run hs hc hm fun rows order L2 L3 L k l hv h => ?_
  have hlim : seedLimit o = some o.seedSupplied := by simp [seedLimit, hr]
  have harc : ∀ v, v < ob.cl.n → ∀ x ∈ rows v, within v x o.seedSupplied := by
    intro v hvn x hx
    obtain ⟨rows₀, hn₀, he⟩ := h.nng
    rw [he, mem_stored] at hx
    rcases hn₀ with ⟨-, ans, h1, h2⟩ | ⟨-, h1⟩
    · rw [h2 v hvn] at hx
      have hx' := nbrs_subset hx
      cases hav : ans v with
      | none => simp [ansRows, hav] at hx'
      | some a =>
        simp only [ansRows, hav, Option.getD_some] at hx'
        have hvP : v ∈ P := by
          by_contra hvP
          rw [h1.none_of v hvP] at hav; cases hav
        have hcr := h1.crit v hvP
        rw [hav] at hcr
        exact hcr.1 _ hlim x hx'
    · rcases h1.row v hvn with h0 | ⟨-, W, hW, hrow⟩
      · rw [h0] at hx; simp at hx
      · rw [hrow] at hx
        obtain ⟨hxW, hxv⟩ := mem_firstOcc.1 hx
        obtain ⟨a, hxa, ⟨hA, -⟩ | ⟨t, -, hA, -⟩⟩ := hW.from_answer x hxW (by simpa using hxv)
        · exact hA.1 _ hlim x hxa
        · exact hA.1 _ hlim x hxa
  refine ⟨rows, greedySeeds rows order, h.seedClusters hc.config hv.size_two, fun s hs' x hx => harc s ((h.seedsOk hv.size_two).range s hs') x hx, fun hum hum2 i hi v hmem => ?_⟩
  obtain ⟨hvn, hget⟩ := mem_members.1 hmem
  have hL := (h.labels.get_eq hc.config (h.lt hv.size_two) h.cap hvn hi).1 hget
  rcases h.rule hv.size_two hvn hL with h2 | ⟨-, ⟨hvP, -, x, hx1, hx2⟩ | ⟨hvP, h2⟩ | h2⟩
  · exact Or.inl h2
  · exact Or.inr ⟨hvP, x, hx2, harc v hvn x (List.mem_of_find?_eq_some hx1)⟩
  · rcases h2 with ⟨h2, -⟩ | ⟨h2, -⟩ <;> rw [hum] at h2 <;> cases h2
  · rcases h2 with ⟨h2, -⟩ | ⟨h2, -⟩ <;> rw [hum2] at h2 <;> cases h2

/-- Options with a seed radius. -/
def radiusOpts (r : Int) : Options Int := { (defaultOptions : Options Int) with sizeConstraint := 2, seedRadius := .useSupplied, seedSupplied := r }

theorem radiusOpts_arrays (r : Int) : OptionArrays 6 (radiusOpts r) (List.range 6) (fun _ => 0) (fun _ => 0) :=
  ⟨fun _ => rfl, nofun, fun x hx => List.mem_range.1 hx, nofun, nofun⟩

theorem radiusOpts_valid {r : Int} (hr : 0 < r) : ValidOptions (radiusOpts r) 6 (List.range 6) :=
  ⟨rfl, le_refl 2, by show 2 ≤ 6; decide, Or.inl ⟨by show 0 < 2; decide, rfl, rfl, rfl⟩, nofun, Or.inl ⟨rfl, rfl⟩, nofun, Or.inl rfl,
    ⟨Or.inr rfl, nofun, fun _ => decide_eq_false (by show ¬ r ≤ 0; omega)⟩, ⟨nofun, nofun⟩, ⟨nofun, nofun⟩, nofun⟩

example : LineOk (radiusOpts 2) := by
  refine line_ok (P := List.range 6) (lab := fun _ => 0) (c := fun _ => 0) (m := .lexical) (radiusOpts_valid (by decide)) (radiusOpts_arrays 2)
    ⟨by decide, fun h => absurd h (by decide)⟩ rfl (by decide) ?_ ?_ (fun h => absurd h (by decide))
  · rintro (⟨-, -, h⟩ | ⟨h, -⟩)
    · exact absurd (h 0 (by decide)) (by decide)
    · exact absurd h (by decide)
  · rintro rows order - - ⟨⟨-, h⟩ | ⟨-, h⟩, -⟩ <;> cases h

/-- C10. -/
theorem C10_ignore_exact {cfg : Cfg} {spi : Spi F} {A : Criterion F} {dist : Nat → Nat → F} {mayRefuse : Prop} {o : Options F} {ob : ClObj}
    (hs : SpiOk spi ob.cl.n A dist mayRefuse) {P : List Nat} {lab c : Nat → Nat} {w : World} (hc : CallOk cfg o ob P lab c w) {m : SeedMethod} (hm : o.seedMethod = .method m)
    (h1 : o.primaryMethod = .ignore) (h2 : o.secondaryMethod = .ignore) (h3 : o.numTypes < 2) :
    OnSuccess cfg spi o ob w fun k b => ∀ i, i < k → (members b ob.cl.n i).length = o.sizeConstraint := by
  refine onSuccess_of_run hs hc hm fun rows order L2 L3 L k l hv h i hi => ?_
  refine Nat.le_antisymm ?_ (h.size_le hc.config hv.size_two hi)
  obtain ⟨s, hs1, hs2, hs3⟩ := h.seed_of_lt hv.size_two hi
  have hsub : members l ob.cl.n i ⊆ closedNbr rows s := by
    intro v hmem
    obtain ⟨hvn, hget⟩ := mem_members.1 hmem
    have hL := (h.labels.get_eq hc.config (h.lt hv.size_two) h.cap hvn hi).1 hget
    rcases h.rule hv.size_two hvn hL with ⟨s', hs', hx⟩ | ⟨-, ⟨hvP, huse, -⟩ | ⟨hvP, h2'⟩ | h2'⟩
    · rw [hs1] at hs'; simp at hs'; rw [hs']; exact hx
    · rcases huse with h' | ⟨-, h'⟩ <;> rw [h1] at h' <;> cases h'
    · rcases h2' with ⟨h', -⟩ | ⟨h', -⟩ <;> rw [h1] at h' <;> cases h'
    · rcases h2' with ⟨h', -⟩ | ⟨h', -⟩ <;> rw [h2] at h' <;> cases h'
  have hle := (List.subperm_of_subset nodup_members hsub).length_le
  have hlen : (rows s).length + 1 = o.sizeConstraint := by
    obtain ⟨rows₀, hn₀, he⟩ := h.nng
    rw [he, Ne, stored_eq_nil] at hs3
    rw [he, length_stored]
    rcases hn₀ with ⟨-, ans, h4, h5⟩ | ⟨h4, -⟩
    swap
    · omega
    rw [h5 s hs2] at hs3 ⊢
    cases hav : ans s with
    | none => simp [ansRows, hav, nbrs] at hs3
    | some a =>
      obtain ⟨r1, r2, -⟩ := h4.row s a hav
      simp only [ansRows, hav, Option.getD_some]
      rw [length_nbrs r2, r1]
      have := hv.size_two
      omega
  simp [closedNbr] at hle
  omega

/-- Options that ignore all points that no seed captures. -/
def ignoreOpts : Options Int := lineOpts .ignore .useSeedRadius 0

example : LineOk ignoreOpts := by
  refine line_ok (P := List.range 6) (lab := fun _ => 0) (c := fun _ => 0) (m := .lexical)
    (line_accepts (um := .ignore) (pr := .useSeedRadius) nofun ⟨nofun, nofun⟩).options (line_call _ _ _).arrays
    ⟨by decide, fun h => absurd h (by decide)⟩ rfl (by decide) ?_ ?_ (fun h => absurd h (by decide))
  · rintro (⟨-, h, -⟩ | ⟨h, -⟩)
    · exact h rfl
    · exact absurd h (by decide)
  · rintro rows order - - ⟨⟨-, h⟩ | ⟨-, h⟩, -⟩ <;> cases h

/-! ### C09: the radius for primary points -/

/-- C09, for the methods that search for the closest seed, or for the closest captured point in the presence of types. What is missing: for the other two settings (any
neighbour, closest captured point without types) the statement is false, see `C09_fails_anyNeighbor` and `C09_fails_closestAssigned`. -/
theorem C09_primary_radius_partial {cfg : Cfg} {spi : Spi F} {le : Nat → Nat → Nat → Prop} {within : Nat → Nat → F → Prop} {dist : Nat → Nat → F} {mayRefuse : Prop} {o : Options F} {ob : ClObj}
    (hs : SpiOk spi ob.cl.n (Nearest le within) dist mayRefuse) {P : List Nat} {lab c : Nat → Nat} {w : World} (hc : CallOk cfg o ob P lab c w) {m : SeedMethod} (hm : o.seedMethod = .method m)
    (hr : o.primaryRadius = .useSupplied) (hum : o.primaryMethod = .ignore ∨ o.primaryMethod = .closestSeed ∨ o.primaryMethod = .closestAssigned ∧ 2 ≤ o.numTypes)
    (hum2 : o.secondaryMethod = .ignore) :
    OnSuccess cfg spi o ob w fun k b => ∃ N seeds, SeedClusters cfg (Nearest le within) ob.cl.n o P lab c k b N seeds ∧
      ∀ i, i < k → ∀ v ∈ members b ob.cl.n i, CapturedBy N seeds i v ∨ ∃ x, CapturedBy N seeds i x ∧ within v x o.primarySupplied := by
  refine onSuccess_of_run hs hc hm fun rows order L2 L3 L k l hv h => ⟨rows, greedySeeds rows order, h.seedClusters hc.config hv.size_two, fun i hi v hmem => ?_⟩
  obtain ⟨hvn, hget⟩ := mem_members.1 hmem
  have hL := (h.labels.get_eq hc.config (h.lt hv.size_two) h.cap hvn hi).1 hget
  rcases h.rule hv.size_two hvn hL with h2 | ⟨hnone, ⟨-, h2, -⟩ | ⟨hvP, h2⟩ | h2⟩
  · exact Or.inl h2
  · exfalso
    rcases h2 with h2 | ⟨h2, h3⟩
    · rcases hum with h4 | h4 | ⟨h4, -⟩ <;> rw [h2] at h4 <;> cases h4
    · rcases hum with h4 | h4 | ⟨-, h4⟩
      · rw [h3] at h4; cases h4
      · rw [h3] at h4; cases h4
      · have : o.numTypes < 2 := by simpa using h2
        omega
  · right
    rcases h2 with ⟨h3, x, hx, hA⟩ | ⟨h3, s, hs', hA⟩
    · rw [h3, hr] at hA
      exact ⟨x, hx, hA.1 _ rfl x (by simp)⟩
    · rw [h3, hr] at hA
      exact ⟨s, ⟨s, hs', by simp [closedNbr]⟩, hA.1 _ rfl s (by simp)⟩
  · exfalso
    rcases h2 with ⟨h', -⟩ | ⟨h', -⟩ <;> rw [hum2] at h' <;> cases h'

example : LineOk (lineOpts .closestSeed .useSupplied 1) := by
  refine line_ok (P := List.range 6) (lab := fun _ => 0) (c := fun _ => 0) (m := .lexical)
    (line_accepts (um := .closestSeed) (pr := .useSupplied) (r := 1) nofun ⟨nofun, fun _ => by decide⟩).options (line_call _ _ _).arrays
    ⟨by decide, fun h => absurd h (by decide)⟩ rfl (by decide) ?_ ?_ (fun h => absurd h (by decide))
  · rintro (⟨-, h, -⟩ | ⟨h, -⟩)
    · exact h rfl
    · exact absurd h (by decide)
  · rintro rows order - - ⟨⟨-, h⟩ | ⟨-, h⟩, -⟩ <;> cases h

/-- A point is given the label of a cluster although a radius `r` for primary points is supplied and every other point of the cluster is farther away than `r`. -/
def RadiusIgnored (um : UnassignedMethod) : Prop :=
  ∃ (o : Options Int) (P : List Nat) (cl : Clustering) (b : Blk Int) (w' : World) (v i : Nat),
    o.primaryMethod = um ∧ o.primaryRadius = .useSupplied ∧ CallOk sampleCfg o lineObj P (fun _ => 0) (fun _ => 0) (sampleWorld [5]) ∧
    scClustering sampleCfg (builtinSpi (some lineData)) o (some lineObj) (sampleWorld [5]) = some ((.ok, some ⟨5, cl⟩), w') ∧ cl.label = some b ∧
    v ∈ P ∧ v ∈ members b.buf 6 i ∧ ∀ x ∈ members b.buf 6 i, x ≠ v → FloatOps.lt o.primarySupplied (lineData.dist v x) = true

theorem radius_ignored {um : UnassignedMethod} (h : um = .anyNeighbor ∨ um = .closestAssigned) : RadiusIgnored um := by
  obtain ⟨cl, b, w', h1, -, h2, h3⟩ := line_run (pr := .useSupplied) (r := 1) h ⟨nofun, fun _ => by decide⟩ nofun
  have hm : ∀ x, x ∈ members b.buf 6 1 ↔ x ∈ [3, 4, 5] := by
    intro x
    have hget := (Buf.read_eq_some.1 h3).2
    rw [mem_members]
    constructor
    · rintro ⟨hx, hx'⟩
      rw [hget x hx] at hx'
      revert x
      decide
    · intro hx
      have hx6 : x < 6 := by revert x; decide
      refine ⟨hx6, ?_⟩
      rw [hget x hx6]
      revert x
      decide
  refine ⟨lineOpts um .useSupplied 1, List.range 6, cl, b, w', 5, 1, rfl, rfl, line_call _ _ _, h1, h2, by decide, (hm 5).2 (by decide), fun x hx hne => ?_⟩
  have hx' := (hm x).1 hx
  show FloatOps.lt (1 : Int) (lineData.dist 5 x) = true
  exact (by decide +kernel : ∀ x ∈ [3, 4, 5], x ≠ 5 → FloatOps.lt (1 : Int) (lineData.dist 5 x) = true) x hx' hne

/-- C09 is false when points join the cluster of any neighbour: the radius is not used. -/
theorem C09_fails_anyNeighbor : RadiusIgnored .anyNeighbor := radius_ignored (Or.inl rfl)

/-- C09 is false when points join the cluster of the closest captured point and there are no types: the digraph decides, and the radius is not used. -/
theorem C09_fails_closestAssigned : RadiusIgnored .closestAssigned := radius_ignored (Or.inr rfl)

/-! ### C33: rejected calls -/

/-- C33. A call that reports invalid input, a combination that is not implemented or no solution leaves labels and number of clusters as they were. -/
theorem C33_rejected_untouched {cfg : Cfg} {spi : Spi F} {A : Criterion F} {dist : Nat → Nat → F} {mayRefuse : Prop} {o : Options F} {ob : ClObj}
    (hs : SpiOk spi ob.cl.n A dist mayRefuse) {P : List Nat} {lab c : Nat → Nat} {w : World} (hc : CallOk cfg o ob P lab c w) {m : SeedMethod} (hm : o.seedMethod = .method m) :
    ∃ e p w', scClustering cfg spi o (some ob) w = some ((e, p), w') ∧
      (e = .invalidInput ∨ e = .notImplemented ∨ e = .noSolution → w'.err.code = e ∧
        ∃ cl', p = some ⟨ob.id, cl'⟩ ∧ cl'.label = ob.cl.label ∧ cl'.numClusters = ob.cl.numClusters ∧ cl'.n = ob.cl.n ∧ (ob.cl.label ≠ none → cl' = ob.cl)) := by
  obtain ⟨⟨e, p⟩, w', h1, h2⟩ := scClustering_spec hs hc hm
  refine ⟨e, p, w', h1, fun he => ?_⟩
  rcases h2 with h2 | ⟨hacc, -, M, cl', hlive, hp, h2⟩
  · exact ⟨h2.err, ob.cl, h2.same, rfl, rfl, rfl, fun _ => rfl⟩
  · dsimp only at hp
    cases h2 with
    | done _ _ rows order L2 L3 L id l data lab' live => simp at he
    | early _ _ _ leak cause unt err live leaked =>
      refine ⟨err, cl', hp, ?_, ?_, ?_, unt.same⟩ <;> rw [unt.flag]
    | late _ _ _ L id l cause err search labels lt pos cap lab' live =>
      rcases cause with ⟨rfl, -⟩ | ⟨rfl, -⟩ | ⟨rfl, -⟩ <;> simp at he

/-! ### C42: no solution -/

/-- Point `v` has at least `k` points within the radius `r`, itself included when it is within `r` of itself. -/
def EnoughWithin (within : Nat → Nat → F → Prop) (n k v : Nat) (r : F) : Prop := ∃ l : List Nat, l.Nodup ∧ l.length = k ∧ ∀ x ∈ l, x < n ∧ within v x r

/-- C42. Without types, "no solution" is reported only if there are fewer points than the size constraint, if there is a seed radius and no primary point has enough points
within it, or because of the estimated radius. When no primary point has enough points within the seed radius the call does not succeed. -/
theorem C42_no_solution {cfg : Cfg} {spi : Spi F} {le : Nat → Nat → Nat → Prop} {within : Nat → Nat → F → Prop} {dist : Nat → Nat → F} {mayRefuse : Prop} {o : Options F} {ob : ClObj}
    (hs : SpiOk spi ob.cl.n (Nearest le within) dist mayRefuse) {P : List Nat} {lab c : Nat → Nat} {w : World} (hc : CallOk cfg o ob P lab c w) {m : SeedMethod} (hm : o.seedMethod = .method m)
    (ht : o.numTypes < 2) :
    ∃ e p w', scClustering cfg spi o (some ob) w = some ((e, p), w') ∧
      (e = .noSolution → ob.cl.n < o.sizeConstraint ∨
        (o.seedRadius = .useSupplied ∧ ∀ v ∈ P, ¬ EnoughWithin within ob.cl.n o.sizeConstraint v o.seedSupplied) ∨
        UsesEstimate o.primaryMethod o.primaryRadius ∨ UsesEstimate o.secondaryMethod o.secondaryRadius) ∧
      (o.seedRadius = .useSupplied → (∀ v ∈ P, ¬ EnoughWithin within ob.cl.n o.sizeConstraint v o.seedSupplied) → e ≠ .ok) := by
  obtain ⟨⟨e, p⟩, w', h1, h2⟩ := scClustering_spec hs hc hm
  refine ⟨e, p, w', h1, fun he => ?_, fun hr hno he => ?_⟩
  · subst he
    rcases h2 with h2 | ⟨hacc, -, M, cl', hlive, hp, h2⟩
    · rcases h2.cause with ⟨h, -⟩ | ⟨-, ⟨h, -⟩ | ⟨-, h⟩ | ⟨h, -⟩ | ⟨h, -⟩⟩ | ⟨h, -⟩
      · cases h
      · cases h
      · exact Or.inl h
      · cases h
      · cases h
      · cases h
    · cases h2 with
      | early _ _ _ leak cause unt err live leaked =>
        rcases cause with h | ⟨-, (⟨-, hne, h⟩ | ⟨h, -⟩) | ⟨rows, order, -, -, -, h⟩⟩ | ⟨h, -⟩
        · rcases h with ⟨h, -⟩ | ⟨h, -⟩ | ⟨h, -⟩ <;> cases h
        · right; left
          have hr : o.seedRadius = .useSupplied := by
            by_contra hr
            exact hne (by simp [seedLimit, hr])
          refine ⟨hr, fun v hv => ?_⟩
          obtain ⟨r, hr1, hr2⟩ := h v hv
          simp only [seedLimit, hr, ↓reduceIte, Option.some.injEq] at hr1
          subst hr1
          rintro ⟨l, hl1, hl2, hl3⟩
          have := hr2 l hl1 (fun x hx => List.mem_range.2 (hl3 x hx).1) fun x hx => (hl3 x hx).2
          omega
        · omega
        · exact Or.inr (Or.inr h.1)
        · cases h
      | late _ _ _ L id l cause err search labels lt pos cap lab' live =>
        rcases cause with ⟨h, -⟩ | ⟨h, -⟩ | ⟨h, -⟩ <;> cases h
  · subst he
    rcases h2 with h2 | ⟨hacc, -, M, cl', hlive, hp, h2⟩
    · exact absurd rfl h2.ne_ok
    · cases h2 with
      | done _ _ rows order L2 L3 L id l data lab' live =>
        have hv := hacc.options
        have hk : 0 < cl'.numClusters := by rw [data.count]; exact List.length_pos_iff.2 data.seeds_ne
        obtain ⟨s, -, hs2, hs3⟩ := data.seed_of_lt hv.size_two hk
        obtain ⟨rows₀, hn₀, he⟩ := data.nng
        rw [he, Ne, stored_eq_nil] at hs3
        rcases hn₀ with ⟨-, ans, h3, h4⟩ | ⟨h3, -⟩
        swap
        · omega
        rw [h4 s hs2] at hs3
        cases hav : ans s with
        | none => simp [ansRows, hav, nbrs] at hs3
        | some a =>
          obtain ⟨r1, r2, r3⟩ := h3.row s a hav
          have hsP : s ∈ P := by
            by_contra hsP
            rw [h3.none_of s hsP] at hav; cases hav
          have hcr := h3.crit s hsP
          rw [hav] at hcr
          exact hno s hsP ⟨a, r2, r1, fun x hx => ⟨List.mem_range.1 (r3 hx), hcr.1 _ (by simp [seedLimit, hr]) x hx⟩⟩
      | early _ _ _ leak cause unt err live leaked => exact absurd rfl cause.ne_ok
      | late _ _ _ L id l cause err search labels lt pos cap lab' live => exact absurd rfl cause.ne_ok

/-- With a seed radius of 2 the call succeeds on the line (see above). With seven points per cluster it reports that there is no solution. -/
example : ∃ p w', scClustering sampleCfg (builtinSpi (some lineData)) { (defaultOptions : Options Int) with sizeConstraint := 7 } (some lineObj) (sampleWorld [5]) =
    some ((.noSolution, p), w') := ⟨_, _, rfl⟩

/-- C42, conversely: the call succeeds when a primary point has enough points within the seed radius (or there is no seed radius), nothing fails, sizes fit and no radius is estimated. -/
theorem C42_solution {cfg : Cfg} {spi : Spi F} {le : Nat → Nat → Nat → Prop} {within : Nat → Nat → F → Prop} {dist : Nat → Nat → F} {o : Options F} {ob : ClObj}
    (hs : SpiOk spi ob.cl.n (Nearest le within) dist False) {P : List Nat} {lab c : Nat → Nat} {w : World} (hc : CallOk cfg o ob P lab c w) {m : SeedMethod} (hm : o.seedMethod = .method m)
    (ht : o.numTypes < 2) (hacc : Accepts cfg spi.valid spi.numPoints o ob.cl P) (hw : w.NoFail) (hbig : ¬ TooBig cfg ob.cl.n o.sizeConstraint m)
    (hest : ¬ UsesEstimate o.primaryMethod o.primaryRadius ∧ ¬ UsesEstimate o.secondaryMethod o.secondaryRadius)
    (hsol : o.seedRadius = .useSupplied → ∃ v ∈ P, EnoughWithin within ob.cl.n o.sizeConstraint v o.seedSupplied) :
    ∃ p w', scClustering cfg spi o (some ob) w = some ((.ok, p), w') := by
  obtain ⟨cl, b, w', rows, order, L2, L3, L, h4, -⟩ := run_ok hs hc hm hacc hw hbig (by
      rintro (⟨-, hne, h⟩ | ⟨h, -⟩)
      · have hr : o.seedRadius = .useSupplied := by
          by_contra hr
          exact hne (by simp [seedLimit, hr])
        obtain ⟨v, hv, l, hl1, hl2, hl3⟩ := hsol hr
        obtain ⟨r, hr1, hr2⟩ := h v hv
        simp only [seedLimit, hr, ↓reduceIte, Option.some.injEq] at hr1
        subst hr1
        have := hr2 l hl1 (fun x hx => List.mem_range.2 (hl3 x hx).1) fun x hx => (hl3 x hx).2
        omega
      · omega)
    (fun _ _ _ _ h => h.1.elim hest.1 hest.2) (fun h => by omega)
  exact ⟨_, w', h4⟩

/-! ### C43: the estimated radius -/

theorem sampledSeeds_sublist (seeds : List Nat) : ∀ s ∈ sampledSeeds seeds, s ∈ seeds := by
  intro s hs
  unfold sampledSeeds at hs
  split at hs
  · exact hs
  · obtain ⟨i, -, hi⟩ := List.mem_filterMap.1 hs
    exact List.mem_of_getElem? hi

theorem sampledSeeds_ne_nil {seeds : List Nat} (h : seeds ≠ []) : sampledSeeds seeds ≠ [] := by
  unfold sampledSeeds
  split
  · exact h
  · have h0 : 0 < seeds.length := List.length_pos_iff.2 h
    refine List.ne_nil_of_mem (a := seeds[0]) (List.mem_filterMap.2 ⟨0, ?_, List.getElem?_eq_getElem h0⟩)
    simp [h0]

/-- C43. When remaining primary points join the cluster of the closest seed within the estimated radius, the radius is the mean over the sampled seeds of the mean distance to
their neighbours (`seedEstimate`); it is positive, sampled seeds are seeds, and there is at least one. A primary point that is not captured is assigned, to a nearest seed within the
radius, exactly when there is a seed within the radius. -/
theorem C43_estimated_radius {cfg : Cfg} {spi : Spi F} {le : Nat → Nat → Nat → Prop} {within : Nat → Nat → F → Prop} {dist : Nat → Nat → F} {mayRefuse : Prop} {o : Options F} {ob : ClObj}
    (hs : SpiOk spi ob.cl.n (Nearest le within) dist mayRefuse) {P : List Nat} {lab c : Nat → Nat} {w : World} (hc : CallOk cfg o ob P lab c w) {m : SeedMethod} (hm : o.seedMethod = .method m)
    (hum : o.primaryMethod = .closestSeed) (hr : o.primaryRadius = .useEstimated) (hum2 : o.secondaryMethod = .ignore) :
    OnSuccess cfg spi o ob w fun k b => ∃ N seeds, SeedClusters cfg (Nearest le within) ob.cl.n o P lab c k b N seeds ∧
      (sampledSeeds seeds ≠ [] ∧ ∀ s ∈ sampledSeeds seeds, s ∈ seeds) ∧ FloatOps.lt FloatOps.zero (seedEstimate dist N seeds) = true ∧
      ∀ v ∈ P, (∀ i, ¬ CapturedBy N seeds i v) →
        (∀ i, i < k → v ∈ members b ob.cl.n i → ∃ s, seeds[i]? = some s ∧ within v s (seedEstimate dist N seeds)) ∧
        (Unassigned cfg b v ↔ ∀ s ∈ seeds, ¬ within v s (seedEstimate dist N seeds)) := by
  refine onSuccess_of_run hs hc hm fun rows order L2 L3 L k l hv h => ⟨rows, greedySeeds rows order, h.seedClusters hc.config hv.size_two,
    ⟨sampledSeeds_ne_nil h.seeds_ne, sampledSeeds_sublist _⟩, ?_, fun v hvP hcap => ?_⟩
  · have := h.estimate
    simp only [BadEstimate, UsesEstimate, hum, hr, ne_eq, reduceCtorEq, not_false_eq_true, and_self, true_or, true_and] at this
    simpa using this
  · have hvn := hc.arrays.range v hvP
    have hsok := h.seedsOk hv.size_two
    have hnone : seedLab rows (greedySeeds rows order) v = none := by
      cases hj : seedLab rows (greedySeeds rows order) v with
      | none => rfl
      | some j => exact absurd ((capturedBy_iff hsok).2 hj) (hcap j)
    have hL2 : L2 v = none := by
      rw [h.staged.nng v hvn, if_neg (by simp [UsesNng, hum]), hnone]
    have hLL : L v = L3 v := by
      rcases h.staged.second with h' | ⟨-, h'⟩
      · rw [hum2] at h'; exact h' v hvn
      · exact h' v hvn
    have hst := h.staged.first
    rw [hum] at hst
    obtain ⟨ans, ha1, ha2⟩ := hst
    have hRad : stageRadius o .closestSeed o.primaryRadius o.primarySupplied (seedEstimate dist rows (greedySeeds rows order)) = some (seedEstimate dist rows (greedySeeds rows order)) := by
      rw [hr]; rfl
    rw [hRad] at ha1
    have hvQ : v ∈ P.filter fun v => (L2 v).isNone := List.mem_filter.2 ⟨hvP, by rw [hL2]; rfl⟩
    have hcr := ha1.crit v hvQ
    have hL3 : L3 v = ((ans v).bind List.head?).bind L2 := by
      rw [ha2 v hvn]; unfold searchLab; rw [hL2]
    cases hav : ans v with
    | none =>
      rw [hav] at hcr hL3
      have hLn : L v = none := by rw [hLL, hL3]; rfl
      obtain ⟨r', hr1, hr2⟩ := hcr
      cases hr1
      refine ⟨fun i hi hmem => ?_, ⟨fun _ s hs' hw' => ?_, fun _ => ?_⟩⟩
      · have := (h.labels.get_eq hc.config (h.lt hv.size_two) h.cap hvn hi).1 (mem_members.1 hmem).2
        rw [hLn] at this; cases this
      · have := hr2 [s] (by simp) (by simpa using hs') (by simpa using hw')
        simp at this
      · have := h.labels v hvn
        rw [hLn] at this; exact this
    | some a =>
      rw [hav] at hcr hL3
      obtain ⟨r1, r2, r3⟩ := ha1.row v a hav
      obtain ⟨x, rfl⟩ := List.length_eq_one_iff.1 r1
      have hx : x ∈ greedySeeds rows order := r3 (by simp)
      obtain ⟨j, hj⟩ := List.mem_iff_getElem?.1 hx
      have hL2x : L2 x = some j := h.keep2 (hsok.range x hx) (hsok.seedLab hj (by simp [closedNbr]))
      have hLj : L v = some j := by rw [hLL, hL3]; exact hL2x
      have hwx := hcr.1 _ rfl x (by simp)
      refine ⟨fun i hi hmem => ?_, ⟨fun hun => ?_, fun hno => absurd hwx (hno x hx)⟩⟩
      · have := (h.labels.get_eq hc.config (h.lt hv.size_two) h.cap hvn hi).1 (mem_members.1 hmem).2
        rw [hLj] at this
        cases this
        exact ⟨x, hj, hwx⟩
      · have := (h.labels.unassigned_iff hc.config (h.lt hv.size_two) h.cap hvn).1 hun
        rw [hLj] at this; cases this

/-- On the line the estimate is 1, so a run with this setting succeeds. -/
example : LineOk (lineOpts .closestSeed .useEstimated 0) := by
  refine line_ok (P := List.range 6) (lab := fun _ => 0) (c := fun _ => 0) (m := .lexical)
    (line_accepts (um := .closestSeed) (pr := .useEstimated) (r := 0) nofun ⟨nofun, nofun⟩).options (line_call _ _ _).arrays
    ⟨by decide, fun h => absurd h (by decide)⟩ rfl (by decide) ?_ ?_ (fun h => absurd h (by decide))
  · rintro (⟨-, h, -⟩ | ⟨h, -⟩)
    · exact h rfl
    · exact absurd h (by decide)
  · rintro rows order h1 h2 ⟨-, h3⟩
    have hrows := line_rows (o := lineOpts .closestSeed .useEstimated 0) rfl (by decide) rfl (h1.off rfl)
    have hord : order = List.range 6 := h2
    have hseeds : greedySeeds rows order = [0, 3] := by
      rw [hord, greedySeeds_congr (rows' := lineRows) fun v hv => hrows v (List.mem_range.1 hv)]; decide
    have hest : seedEstimate lineData.dist rows [0, 3] = seedEstimate lineData.dist lineRows [0, 3] := by
      simp only [seedEstimate, sampledSeeds, meanDist, List.length_cons, List.length_nil, Nat.reduceAdd, Nat.reduceLeDiff, ↓reduceIte, List.foldl_cons, List.foldl_nil,
        hrows 0 (by decide), hrows 3 (by decide)]
    rw [hseeds, hest] at h3
    revert h3
    decide +kernel

end Scc
