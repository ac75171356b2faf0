/-
Properties C55 and C56: which points `scc_sc_clustering` assigns to which cluster, and C42 with types. The specification is in Spec/Assign.lean.
-/
import Verif.Spec.Assign
import Verif.Props.Hierarchical

set_option linter.unusedSimpArgs false
set_option linter.unusedVariables false

namespace Scc

variable {F : Type} [FloatOps F]

omit [FloatOps F] in
/-- What a search stage does with a point that has no label yet. -/
theorem stage_point {le : Nat → Nat → Nat → Prop} {within : Nat → Nat → F → Prop} {n : Nat} {rows : Nat → List Nat} {seeds : List Nat} {um : UnassignedMethod} {R : Option F} {Q : List Nat}
    {K K' : Nat → Option Nat} (hst : SearchStage (Nearest le within) n um (labelled n (seedLab rows seeds)) seeds R Q K K') (hrefl : ∀ q x, le q x x) (hsok : SeedsOk n rows seeds)
    (hcap : ∀ j y, CapturedBy rows seeds j y → y < n) (hkeep : ∀ x j, x < n → seedLab rows seeds x = some j → K x = some j) {v : Nat} (hv : v < n) (hK : K v = none) :
    (v ∉ Q → K' v = none) ∧ (v ∈ Q → (∃ i, K' v = some i ∧ JoinsNearest le within rows seeds um R v i) ∨ K' v = none ∧ NothingNear within rows seeds um R v) := by
  have key : ∀ {set : List Nat} {ans : Nat → Option (List Nat)}, (∀ x, x ∈ set ↔ Candidate rows seeds um x) → (∀ x ∈ set, ∃ j, CapturedBy rows seeds j x) →
      Answers (Nearest le within) set 1 R (Q.filter fun v => (K v).isNone) ans → (∀ v, v < n → K' v = searchLab ans K v) →
      (v ∉ Q → K' v = none) ∧ (v ∈ Q → (∃ i, K' v = some i ∧ JoinsNearest le within rows seeds um R v i) ∨ K' v = none ∧ NothingNear within rows seeds um R v) := by
    intro set ans hset hset' h1 h2
    have hK' : K' v = ((ans v).bind List.head?).bind K := by rw [h2 v hv]; unfold searchLab; rw [hK]
    constructor
    · intro hvQ
      rw [hK', h1.none_of v fun h => hvQ (List.mem_filter.1 h).1]; rfl
    · intro hvQ
      have hvQ' : v ∈ Q.filter fun v => (K v).isNone := List.mem_filter.2 ⟨hvQ, by rw [hK]; rfl⟩
      have hcr := h1.crit v hvQ'
      cases hav : ans v with
      | none =>
        right
        rw [hav] at hcr hK'
        obtain ⟨r, hr, hr2⟩ := hcr
        refine ⟨by rw [hK']; rfl, fun x hx => ⟨r, hr, fun hw => ?_⟩⟩
        have := hr2 [x] (by simp) (by simpa using (hset x).2 hx) (by simpa using hw)
        simp at this
      | some a =>
        left
        rw [hav] at hcr hK'
        obtain ⟨r1, r2, r3⟩ := h1.row v a hav
        obtain ⟨x, rfl⟩ := List.length_eq_one_iff.1 r1
        have hx : x ∈ set := r3 (by simp)
        obtain ⟨j, hj⟩ := hset' x hx
        refine ⟨j, by rw [hK']; exact hkeep x j (hcap j x hj) ((capturedBy_iff hsok).1 hj), x, (hset x).1 hx, hj, fun r hr => hcr.1 r hr x (by simp), fun y hy => ?_⟩
        by_cases hyx : y = x
        · rw [hyx]; exact hrefl v x
        · exact hcr.2.2 x (by simp) y ((hset y).2 hy) (by simpa using hyx)
  have other : (∀ x, ¬ Candidate rows seeds um x) → (∀ v, v < n → K' v = K v) →
      (v ∉ Q → K' v = none) ∧ (v ∈ Q → (∃ i, K' v = some i ∧ JoinsNearest le within rows seeds um R v i) ∨ K' v = none ∧ NothingNear within rows seeds um R v) := by
    intro h1 h2
    have : K' v = none := by rw [h2 v hv, hK]
    exact ⟨fun _ => this, fun _ => Or.inr ⟨this, fun x hx => absurd hx (h1 x)⟩⟩
  cases um with
  | closestAssigned =>
    obtain ⟨ans, h1, h2⟩ := hst
    have hset : ∀ x, x ∈ labelled n (seedLab rows seeds) ↔ ∃ j, CapturedBy rows seeds j x := by
      intro x
      rw [mem_labelled, Option.isSome_iff_exists]
      constructor
      · rintro ⟨-, j, hj⟩; exact ⟨j, (capturedBy_iff hsok).2 hj⟩
      · rintro ⟨j, hj⟩; exact ⟨hcap j x hj, j, (capturedBy_iff hsok).1 hj⟩
    exact key hset (fun x hx => (hset x).1 hx) h1 h2
  | closestSeed =>
    obtain ⟨ans, h1, h2⟩ := hst
    refine key (fun x => Iff.rfl) (fun x hx => ?_) h1 h2
    obtain ⟨j, hj⟩ := List.mem_iff_getElem?.1 hx
    exact ⟨j, x, hj, by simp [closedNbr]⟩
  | ignore => exact other (fun x h => h) hst
  | anyNeighbor => exact other (fun x h => h) hst
  | unknown => exact other (fun x h => h) hst

/-- C55. What happens to a point that no seed captures. A primary point joins the cluster of its first captured neighbour if neighbours count, otherwise that of the nearest candidate within
the radius for primary points. All points that are left then join the cluster of the nearest candidate for secondary points within the radius for these. A point stays without cluster
exactly when there is no such neighbour and no such candidate (or the last search failed). -/
theorem C55_assignment {cfg : Cfg} {spi : Spi F} {le : Nat → Nat → Nat → Prop} {within : Nat → Nat → F → Prop} {dist : Nat → Nat → F} {mayRefuse : Prop} {o : Options F} {ob : ClObj}
    (hs : SpiOk spi ob.cl.n (Nearest le within) dist mayRefuse) (hrefl : ∀ q x, le q x x) {P : List Nat} {lab c : Nat → Nat} {w : World} (hc : CallOk cfg o ob P lab c w) {m : SeedMethod} (hm : o.seedMethod = .method m) :
    OnSuccess cfg spi o ob w fun k b => ∃ N seeds, SeedClusters cfg (Nearest le within) ob.cl.n o P lab c k b N seeds ∧
      ∀ v, v < ob.cl.n → (∀ j, ¬ CapturedBy N seeds j v) →
        let R1 := stageRadius o o.primaryMethod o.primaryRadius o.primarySupplied (seedEstimate dist N seeds)
        let R2 := stageRadius o o.secondaryMethod o.secondaryRadius o.secondarySupplied (seedEstimate dist N seeds)
        (∀ i, i < k → v ∈ members b ob.cl.n i →
          v ∈ P ∧ UsesNeighbors o ∧ JoinsNeighbor N seeds v i ∨
          v ∈ P ∧ (UsesNeighbors o → ∀ x ∈ N v, ∀ j, ¬ CapturedBy N seeds j x) ∧ JoinsNearest le within N seeds o.primaryMethod R1 v i ∨
          LeftOver within N seeds o R1 P v ∧ JoinsNearest le within N seeds o.secondaryMethod R2 v i) ∧
        (Unassigned cfg b v → LeftOver within N seeds o R1 P v ∧ (NothingNear within N seeds o.secondaryMethod R2 v ∨ ¬ w.NoFail ∨ mayRefuse)) ∧
        (LeftOver within N seeds o R1 P v → NothingNear within N seeds o.secondaryMethod R2 v → Unassigned cfg b v) := by
  refine onSuccess_of_run hs hc hm fun rows order L2 L3 L k l hv h => ⟨rows, greedySeeds rows order, h.seedClusters hc.config hv.size_two, fun v hvn hnot => ?_⟩
  intro R1 R2
  have hsok := h.seedsOk hv.size_two
  have hcap : ∀ j y, CapturedBy rows (greedySeeds rows order) j y → y < ob.cl.n := fun j y hy => (h.captured hc.config hv.size_two hy).1
  have hsl : seedLab rows (greedySeeds rows order) v = none := by
    cases hj : seedLab rows (greedySeeds rows order) v with
    | none => rfl
    | some j => exact absurd ((capturedBy_iff hsok).2 hj) (hnot j)
  have huse : UsesNng (decide (o.numTypes < 2)) o.primaryMethod ↔ UsesNeighbors o := by simp [UsesNng, UsesNeighbors]
  have hget : ∀ i, i < k → (v ∈ members l ob.cl.n i ↔ L v = some i) := fun i hi => by
    rw [mem_members, h.labels.get_eq hc.config (h.lt hv.size_two) h.cap hvn hi]; simp [hvn]
  rw [h.labels.unassigned_iff hc.config (h.lt hv.size_two) h.cap hvn]
  -- the label after the digraph stage
  have h2 : (∃ i, L2 v = some i ∧ v ∈ P ∧ UsesNeighbors o ∧ JoinsNeighbor rows (greedySeeds rows order) v i) ∨
      L2 v = none ∧ (UsesNeighbors o → ∀ x ∈ rows v, ∀ j, ¬ CapturedBy rows (greedySeeds rows order) j x) := by
    have hL2 := h.staged.nng v hvn
    by_cases hu : UsesNeighbors o
    · rw [if_pos (huse.2 hu)] at hL2
      simp only [nngLab, hsl] at hL2
      cases hfind : (rows v).find? fun a => (seedLab rows (greedySeeds rows order) a).isSome with
      | none =>
        right
        rw [hfind] at hL2
        refine ⟨hL2, fun _ x hx j hj => ?_⟩
        have := List.find?_eq_none.1 hfind x hx
        rw [(capturedBy_iff hsok).1 hj] at this
        simp at this
      | some x =>
        left
        rw [hfind] at hL2
        obtain ⟨hx, as, bs, hab, hfirst⟩ := List.find?_eq_some_iff_append.1 hfind
        obtain ⟨i, hi⟩ := Option.isSome_iff_exists.1 hx
        have hne : rows v ≠ [] := by rw [hab]; simp
        refine ⟨i, by rw [hL2]; exact hi, (h.facts hv.size_two).mem v hvn hne, hu, as, x, bs, hab, (capturedBy_iff hsok).2 hi, fun y hy j hj => ?_⟩
        have := hfirst y hy
        rw [(capturedBy_iff hsok).1 hj] at this
        simp at this
    · rw [if_neg (fun h => hu (huse.1 h)), hsl] at hL2
      exact Or.inr ⟨hL2, fun h => absurd h hu⟩
  rcases h2 with ⟨i, hi, hvP, hu, hj⟩ | ⟨hL2, hno⟩
  · have hL := h.keep4 hvn (h.keep3 hvn hi)
    refine ⟨fun i' hi' hmem => ?_, fun hun => ?_, fun hleft _ => ?_⟩
    · have := (hget i' hi').1 hmem
      rw [hL] at this
      cases this
      exact Or.inl ⟨hvP, hu, hj⟩
    · rw [hL] at hun; cases hun
    · exfalso
      obtain ⟨l₁, x, l₂, hx, hcx, -⟩ := hj
      exact (hleft hvP).1 hu x (by rw [hx]; simp) i hcx
  · obtain ⟨ha, hb⟩ := stage_point h.staged.first hrefl hsok hcap (fun x j hx hj => h.keep2 hx hj) hvn hL2
    have h3 : (∃ i, L3 v = some i ∧ v ∈ P ∧ JoinsNearest le within rows (greedySeeds rows order) o.primaryMethod R1 v i) ∨ L3 v = none ∧ LeftOver within rows (greedySeeds rows order) o R1 P v := by
      by_cases hvP : v ∈ P
      · rcases hb hvP with ⟨i, h5, h6⟩ | ⟨h5, h6⟩
        · exact Or.inl ⟨i, h5, hvP, h6⟩
        · exact Or.inr ⟨h5, fun _ => ⟨hno, h6⟩⟩
      · exact Or.inr ⟨ha hvP, fun h => absurd h hvP⟩
    rcases h3 with ⟨i, hi, hvP, hj⟩ | ⟨hL3, hleft⟩
    · have hL := h.keep4 hvn hi
      refine ⟨fun i' hi' hmem => ?_, fun hun => ?_, fun hleft _ => ?_⟩
      · have := (hget i' hi').1 hmem
        rw [hL] at this
        cases this
        exact Or.inr (Or.inl ⟨hvP, hno, hj⟩)
      · rw [hL] at hun; cases hun
      · exfalso
        obtain ⟨x, hx, -, hw, -⟩ := hj
        obtain ⟨r, hr, hn⟩ := (hleft hvP).2 x hx
        exact hn (hw r hr)
    · rcases h.staged.second with h4 | ⟨hlost, h4⟩
      · obtain ⟨-, hb⟩ := stage_point h4 hrefl hsok hcap (fun x j hx hj => h.keep3 hx (h.keep2 hx hj)) hvn hL3
        rcases hb (List.mem_range.2 hvn) with ⟨i, hi, hj⟩ | ⟨hL, hn⟩
        · refine ⟨fun i' hi' hmem => ?_, fun hun => ?_, fun _ hn => ?_⟩
          · have := (hget i' hi').1 hmem
            rw [hi] at this
            cases this
            exact Or.inr (Or.inr ⟨hleft, hj⟩)
          · rw [hi] at hun; cases hun
          · exfalso
            obtain ⟨x, hx, -, hw, -⟩ := hj
            obtain ⟨r, hr, hn⟩ := hn x hx
            exact hn (hw r hr)
        · refine ⟨fun i' hi' hmem => ?_, fun _ => ⟨hleft, Or.inl hn⟩, fun _ _ => hL⟩
          have := (hget i' hi').1 hmem
          rw [hL] at this; cases this
      · have hL : L v = none := by rw [h4 v hvn, hL3]
        refine ⟨fun i' hi' hmem => ?_, fun _ => ⟨hleft, Or.inr hlost⟩, fun _ _ => hL⟩
        have := (hget i' hi').1 hmem
        rw [hL] at this; cases this

/-- On the line a run with the primary points 0, 2 and 3 succeeds, and the theorem applies to it: seeds are 0 and 3, point 2 joins the cluster of its neighbour 1 and point 5 that of the
closest seed. -/
example : LineOk (primaryOpts .closestSeed) := primaryOpts_ok (Or.inr rfl)

example := C55_assignment lineSpi_nearest (fun q x => by simp [DataSet.NoFarther, FloatOps.le])
    (line_callOk (primaryOpts_arrays .closestSeed) ⟨by decide, fun h => absurd h (by decide)⟩) (m := .lexical) rfl

/-! ### C56: the methods for primary points and for other points -/

/-- C56, when secondary points are ignored: a primary point that no seed captures is left without cluster exactly when the settings for primary points leave it. In particular it is left when
primary points are to be ignored. Missing: other methods for secondary points, for which it is false (`C56_fails`). -/
theorem C56_primary_settings_partial {cfg : Cfg} {spi : Spi F} {le : Nat → Nat → Nat → Prop} {within : Nat → Nat → F → Prop} {dist : Nat → Nat → F} {mayRefuse : Prop} {o : Options F} {ob : ClObj}
    (hs : SpiOk spi ob.cl.n (Nearest le within) dist mayRefuse) (hrefl : ∀ q x, le q x x) {P : List Nat} {lab c : Nat → Nat} {w : World} (hc : CallOk cfg o ob P lab c w) {m : SeedMethod} (hm : o.seedMethod = .method m)
    (hum2 : o.secondaryMethod = .ignore) :
    OnSuccess cfg spi o ob w fun k b => ∃ N seeds, SeedClusters cfg (Nearest le within) ob.cl.n o P lab c k b N seeds ∧
      ∀ v ∈ P, (∀ j, ¬ CapturedBy N seeds j v) →
        (Unassigned cfg b v ↔ (UsesNeighbors o → ∀ x ∈ N v, ∀ j, ¬ CapturedBy N seeds j x) ∧
          NothingNear within N seeds o.primaryMethod (stageRadius o o.primaryMethod o.primaryRadius o.primarySupplied (seedEstimate dist N seeds)) v) ∧
        (o.primaryMethod = .ignore → Unassigned cfg b v) := by
  obtain ⟨e, p, w', h1, h2⟩ := C55_assignment hs hrefl hc hm
  refine ⟨e, p, w', h1, fun he => ?_⟩
  obtain ⟨g1, cl, b, g2, g3, g4, g5, g6, N, seeds, g7, g8⟩ := h2 he
  refine ⟨g1, cl, b, g2, g3, g4, g5, g6, N, seeds, g7, fun v hvP hno => ?_⟩
  obtain ⟨-, k2, k3⟩ := g8 v (hc.arrays.range v hvP) hno
  have hnn : ∀ um R, um = UnassignedMethod.ignore → NothingNear within N seeds um R v := by
    rintro um R rfl x hx; exact absurd hx id
  refine ⟨⟨fun hun => (k2 hun).1 hvP, fun h => k3 (fun _ => h) (hnn _ _ hum2)⟩, fun hig => k3 (fun _ => ⟨?_, hnn _ _ hig⟩) (hnn _ _ hum2)⟩
  rintro (h | ⟨-, h⟩) <;> rw [hig] at h <;> cases h

/-- Options for the primary points 0, 2 and 3 that ignore primary points which no seed captures. -/
def ignorePrimary (um : UnassignedMethod) : Options Int := { primaryOpts um with primaryMethod := .ignore }

theorem ignorePrimary_call (um : UnassignedMethod) : CallOk sampleCfg (ignorePrimary um) lineObj [0, 2, 3] (fun _ => 0) (fun _ => 0) (sampleWorld [5]) :=
  line_callOk (have h := primaryOpts_arrays um; ⟨h.all, h.primary, h.range, h.labels, h.constraints⟩) ⟨by show 6 * 2 ≤ 2 ^ 64 - 1; decide, fun h => absurd h (by show ¬ 2 ≤ 0; decide)⟩

example := C56_primary_settings_partial lineSpi_nearest (fun q x => by simp [DataSet.NoFarther, FloatOps.le]) (ignorePrimary_call .ignore) (m := .lexical) rfl rfl

/-- C56 is false: primary points that no seed captures are to be ignored, and with `SCC_UM_IGNORE` for secondary points the primary point 2 has no cluster. With `SCC_UM_CLOSEST_SEED` for
secondary points it gets one. -/
theorem C56_fails : 2 ∈ [0, 2, 3] ∧ (∀ um, (ignorePrimary um).primaryMethod = .ignore ∧ CallOk sampleCfg (ignorePrimary um) lineObj [0, 2, 3] (fun _ => 0) (fun _ => 0) (sampleWorld [5])) ∧
    hiSummary (scClustering sampleCfg (builtinSpi (some lineData)) (ignorePrimary .ignore) (some lineObj) (sampleWorld [5])) =
      some (.ok, 2, [some 0, some 0, some sampleCfg.na, some 1, some 1, some sampleCfg.na]) ∧
    hiSummary (scClustering sampleCfg (builtinSpi (some lineData)) (ignorePrimary .closestSeed) (some lineObj) (sampleWorld [5])) =
      some (.ok, 2, [some 0, some 0, some 0, some 1, some 1, some 1]) :=
  ⟨by decide, fun um => ⟨rfl, ignorePrimary_call um⟩, by decide +kernel, by decide +kernel⟩

/-- Options with a radius of 1 for primary points, which join the cluster of the closest seed, as do secondary points. -/
def narrowPrimary : Options Int := { primaryOpts .closestSeed with primaryMethod := .closestSeed, primaryRadius := .useSupplied, primarySupplied := 1 }

/-- C09 is also false with `SCC_UM_CLOSEST_SEED` for primary points when secondary points are assigned: the primary point 2 gets a label although the radius is 1 and all other points of the
cluster are at least 2 away. -/
theorem C09_fails_secondary : RadiusIgnored .closestSeed := by
  have hrun : ((scClustering sampleCfg (builtinSpi (some lineData)) narrowPrimary (some lineObj) (sampleWorld [5])).bind fun r => r.1.2.bind fun ob => ob.cl.label.map fun b =>
      (r.1.1, ob.id, members b.buf 6 0)) = some (.ok, 5, [0, 1, 2]) := by decide +kernel
  obtain ⟨⟨⟨e, p⟩, w'⟩, h1, hrun⟩ := Option.bind_eq_some_iff.1 hrun
  obtain ⟨⟨id, cl⟩, hp, hrun⟩ := Option.bind_eq_some_iff.1 hrun
  obtain ⟨b, h2, hrun⟩ := Option.map_eq_some_iff.1 hrun
  dsimp only at hp
  subst hp
  simp only [Prod.mk.injEq] at hrun
  obtain ⟨rfl, rfl, h3⟩ := hrun
  refine ⟨narrowPrimary, [0, 2, 3], cl, b, w', 2, 0, rfl, rfl,
    line_callOk (have h := primaryOpts_arrays .closestSeed; ⟨h.all, h.primary, h.range, h.labels, h.constraints⟩) ⟨by show 6 * 2 ≤ 2 ^ 64 - 1; decide, fun h => absurd h (by show ¬ 2 ≤ 0; decide)⟩,
    h1, h2, by decide, by rw [h3]; decide, ?_⟩
  rw [h3]
  decide +kernel

/-! ### C42 with types -/

/-- C42 with types: "no solution" is reported only if there are fewer points than the size constraint, if there are too few points of some type, if there is a seed radius and no primary
point has enough points (of each type) within it, or because of the estimated radius. When no primary point has enough points within the seed radius the call does not succeed. -/
theorem C42_no_solution_types {cfg : Cfg} {spi : Spi F} {le : Nat → Nat → Nat → Prop} {within : Nat → Nat → F → Prop} {dist : Nat → Nat → F} {mayRefuse : Prop} {o : Options F} {ob : ClObj}
    (hs : SpiOk spi ob.cl.n (Nearest le within) dist mayRefuse) {P : List Nat} {lab c : Nat → Nat} {w : World} (hc : CallOk cfg o ob P lab c w) {m : SeedMethod} (hm : o.seedMethod = .method m)
    (ht : 2 ≤ o.numTypes) (hself : ∀ v, v < ob.cl.n → within v v o.seedSupplied) :
    ∃ e p w', scClustering cfg spi o (some ob) w = some ((e, p), w') ∧
      (e = .noSolution → ob.cl.n < o.sizeConstraint ∨
        (∃ t, t < o.numTypes ∧ ((List.range ob.cl.n).filter fun v => lab v = t).length < c t) ∨
        (o.seedRadius = .useSupplied ∧ ∀ v ∈ P, ¬ EnoughOfTypes within ob.cl.n o.sizeConstraint o.numTypes lab c v o.seedSupplied) ∨
        UsesEstimate o.primaryMethod o.primaryRadius ∨ UsesEstimate o.secondaryMethod o.secondaryRadius) ∧
      (o.seedRadius = .useSupplied → (∀ v ∈ P, ¬ EnoughOfTypes within ob.cl.n o.sizeConstraint o.numTypes lab c v o.seedSupplied) → e ≠ .ok) := by
  obtain ⟨⟨e, p⟩, w', h1, h2⟩ := scClustering_spec hs hc hm
  refine ⟨e, p, w', h1, fun he => ?_, fun hr hno he => ?_⟩
  · subst he
    rcases h2 with h2 | ⟨hacc, -, M, cl', hlive, hp, h2⟩
    · rcases h2.cause with ⟨h, -⟩ | ⟨-, ⟨h, -⟩ | ⟨-, h⟩ | ⟨h, -⟩ | ⟨h, -⟩⟩ | ⟨h, -⟩
      · cases h
      · cases h
      · exact Or.inl h
      · cases h
      · cases h
      · cases h
    · cases h2 with
      | early _ _ _ leak cause unt err live leaked =>
        rcases cause with h | ⟨-, (⟨h, -⟩ | ⟨-, ⟨hne, h⟩ | ⟨t, ht', h⟩⟩) | ⟨rows, order, -, -, -, h⟩⟩ | ⟨h, -⟩
        · rcases h with ⟨h, -⟩ | ⟨h, -⟩ | ⟨h, -⟩ <;> cases h
        · omega
        · right; right; left
          have hr : o.seedRadius = .useSupplied := by
            by_contra hr
            exact hne (by simp [seedLimit, hr])
          refine ⟨hr, fun v hv => ?_⟩
          rintro ⟨⟨l, hl1, hl2, hl3⟩, hty⟩
          rcases h v hv with ⟨-, r, hr1, hr2⟩ | ⟨t, ht', -, r, hr1, hr2⟩
          · simp only [seedLimit, hr, ↓reduceIte, Option.some.injEq] at hr1
            subst hr1
            have := hr2 l hl1 (fun x hx => List.mem_range.2 (hl3 x hx).1) fun x hx => (hl3 x hx).2
            omega
          · simp only [seedLimit, hr, ↓reduceIte, Option.some.injEq] at hr1
            subst hr1
            obtain ⟨l, hl1, hl2, hl3⟩ := hty t ht'
            have := hr2 l hl1 (fun x hx => by simp [typeGroup, (hl3 x hx).1, (hl3 x hx).2.1]) fun x hx => (hl3 x hx).2.2
            omega
        · right; left
          exact ⟨t, ht', by simpa [typeGroup] using h⟩
        · exact Or.inr (Or.inr (Or.inr h.1))
        · cases h
      | late _ _ _ L id l cause err search labels lt pos cap lab' live =>
        rcases cause with ⟨h, -⟩ | ⟨h, -⟩ | ⟨h, -⟩ <;> cases h
  · subst he
    rcases h2 with h2 | ⟨hacc, -, M, cl', hlive, hp, h2⟩
    · exact absurd rfl h2.ne_ok
    · cases h2 with
      | done _ _ rows order L2 L3 L id l data lab' live =>
        have hv := hacc.options
        have hk : 0 < cl'.numClusters := by rw [data.count]; exact List.length_pos_iff.2 data.seeds_ne
        obtain ⟨s, -, hs2, hs3⟩ := data.seed_of_lt hv.size_two hk
        obtain ⟨rows₀, hn₀, he⟩ := data.nng
        rw [he, Ne, stored_eq_nil] at hs3
        rcases hn₀ with ⟨h3, -⟩ | ⟨-, h3⟩
        · omega
        rcases h3.row s hs2 with h4 | ⟨hsP, W, hW, -⟩
        · exact hs3 h4
        have hlim : seedLimit o = some o.seedSupplied := by simp [seedLimit, hr]
        have hin : ∀ x ∈ W, within s x o.seedSupplied := by
          intro x hx
          by_cases hxs : x = s
          · rw [hxs]; exact hself s hs2
          · obtain ⟨a, hxa, ⟨hA, -⟩ | ⟨t, -, hA, -⟩⟩ := hW.from_answer x hx hxs
            · exact hA.1 _ hlim x hxa
            · exact hA.1 _ hlim x hxa
        refine hno s hsP ⟨⟨W, hW.nodup, hW.len, fun x hx => ⟨hW.range x hx, hin x hx⟩⟩, fun t ht' => ?_⟩
        have hcnt := hW.types t ht'
        rw [List.countP_eq_length_filter] at hcnt
        refine ⟨(W.filter fun x => lab x = t).take (c t), (hW.nodup.filter _).sublist (List.take_sublist _ _), by rw [List.length_take]; exact Nat.min_eq_left hcnt, fun x hx => ?_⟩
        obtain ⟨hxW, hxt⟩ := List.mem_filter.1 (List.mem_of_mem_take hx)
        exact ⟨hW.range x hxW, by simpa using hxt, hin x hxW⟩
      | early _ _ _ leak cause unt err live leaked => exact absurd rfl cause.ne_ok
      | late _ _ _ L id l cause err search labels lt pos cap lab' live => exact absurd rfl cause.ne_ok

/-- C42 with types, conversely: the call succeeds when there are enough points of each type, a primary point has enough points within the seed radius (or there is no seed radius), nothing
fails, sizes fit and no radius is estimated. -/
theorem C42_solution_types {cfg : Cfg} {spi : Spi F} {le : Nat → Nat → Nat → Prop} {within : Nat → Nat → F → Prop} {dist : Nat → Nat → F} {o : Options F} {ob : ClObj}
    (hs : SpiOk spi ob.cl.n (Nearest le within) dist False) {P : List Nat} {lab c : Nat → Nat} {w : World} (hc : CallOk cfg o ob P lab c w) {m : SeedMethod} (hm : o.seedMethod = .method m)
    (ht : 2 ≤ o.numTypes) (hacc : Accepts cfg spi.valid spi.numPoints o ob.cl P) (hw : w.NoFail) (hbig : ¬ TooBig cfg ob.cl.n o.sizeConstraint m)
    (hest : ¬ UsesEstimate o.primaryMethod o.primaryRadius ∧ ¬ UsesEstimate o.secondaryMethod o.secondaryRadius) (hsum : ((List.range o.numTypes).map c).sum ≤ o.sizeConstraint)
    (htypes : ∀ t, t < o.numTypes → c t ≤ ((List.range ob.cl.n).filter fun v => lab v = t).length)
    (hsol : o.seedRadius = .useSupplied → ∃ v ∈ P, EnoughOfTypes within ob.cl.n o.sizeConstraint o.numTypes lab c v o.seedSupplied) :
    ∃ p w', scClustering cfg spi o (some ob) w = some ((.ok, p), w') := by
  obtain ⟨cl, b, w', rows, order, L2, L3, L, h4, -⟩ := run_ok hs hc hm hacc hw hbig (by
      rintro (⟨h, -⟩ | ⟨-, ⟨hne, h⟩ | ⟨t, ht', h⟩⟩)
      · omega
      · have hr : o.seedRadius = .useSupplied := by
          by_contra hr
          exact hne (by simp [seedLimit, hr])
        obtain ⟨v, hv, ⟨l, hl1, hl2, hl3⟩, hty⟩ := hsol hr
        rcases h v hv with ⟨-, r, hr1, hr2⟩ | ⟨t, ht', -, r, hr1, hr2⟩
        · simp only [seedLimit, hr, ↓reduceIte, Option.some.injEq] at hr1
          subst hr1
          have := hr2 l hl1 (fun x hx => List.mem_range.2 (hl3 x hx).1) fun x hx => (hl3 x hx).2
          omega
        · simp only [seedLimit, hr, ↓reduceIte, Option.some.injEq] at hr1
          subst hr1
          obtain ⟨l, hl1, hl2, hl3⟩ := hty t ht'
          have := hr2 l hl1 (fun x hx => by simp [typeGroup, (hl3 x hx).1, (hl3 x hx).2.1]) fun x hx => (hl3 x hx).2.2
          omega
      · have := htypes t ht'
        simp [typeGroup] at h this
        omega)
    (fun _ _ _ _ h => h.1.elim hest.1 hest.2) (fun _ => hsum)
  exact ⟨_, w', h4⟩

instance (ds : DataSet Int) (q x : Nat) (r : Int) : Decidable (ds.Within q x r) := by unfold DataSet.Within; infer_instance

/-- Two types, with a seed radius. -/
def typeRadiusOpts (r : Int) : Options Int := { typeOpts with seedRadius := .useSupplied, seedSupplied := r }

theorem typeRadiusOpts_call (r : Int) : CallOk sampleCfg (typeRadiusOpts r) lineObj (List.range 6) (fun v => v % 2) (fun _ => 1) (sampleWorld [5]) :=
  line_callOk (have h := typeOpts_arrays; ⟨h.all, h.primary, h.range, h.labels, h.constraints⟩) ⟨by show 6 * 2 ≤ 2 ^ 64 - 1; decide, fun _ => ⟨⟨0, by show 0 < 2; decide, by decide⟩, by show (([0, 1].map fun _ => 1).sum : Nat) < 2 ^ 32; decide⟩⟩

/-- With radius 1 the points 0 and 1, which have different types, can form a cluster. -/
example : ∃ p w', scClustering sampleCfg (builtinSpi (some lineData)) (typeRadiusOpts 1) (some lineObj) (sampleWorld [5]) = some ((.ok, p), w') :=
  C42_solution_types lineSpi_nearest (typeRadiusOpts_call 1) (m := .lexical) rfl (by decide)
    ⟨by decide, by decide, by decide, ⟨rfl, by decide, by decide, Or.inr ⟨by decide, by decide, nofun, by decide, nofun⟩, nofun, Or.inl ⟨rfl, rfl⟩, nofun, Or.inl rfl,
      ⟨Or.inr rfl, nofun, fun _ => by decide⟩, ⟨nofun, nofun⟩, ⟨nofun, nofun⟩, nofun⟩, rfl⟩
    (fun _ _ => rfl) (by simp [TooBig, SeedMethod.IsExclusion]; decide) ⟨fun h => absurd h.2 (by decide), fun h => absurd h.2 (by decide)⟩ (by decide) (by decide)
    fun _ => ⟨0, by decide, ⟨[0, 1], by decide, rfl, by decide⟩, fun t ht => ⟨[t], by simp, rfl, by
      have ht' : t < 2 := ht
      intro x hx
      rw [List.mem_singleton] at hx
      subst hx
      revert x
      decide⟩⟩

/-- Two types, with a seed radius of 1; only point 5, which is far from all others, may be a seed. -/
def typeFarOpts : Options Int := { typeRadiusOpts 1 with lenPrimary := 1, primary := some (Buf.ofList [5]) }

theorem typeFarOpts_call : CallOk sampleCfg typeFarOpts lineObj [5] (fun v => v % 2) (fun _ => 1) (sampleWorld [5]) :=
  line_callOk ⟨nofun, by intro b h; cases h; exact ⟨rfl, fun i x h => by rw [Buf.get_ofList]; exact h⟩, by decide, typeOpts_arrays.labels, typeOpts_arrays.constraints⟩
    ⟨by decide, fun _ => ⟨⟨0, by decide⟩, by decide⟩⟩

/-- There is no solution, which the call reports, as the theorem says that it must (it cannot return "ok"). -/
example : (∃ e p w', scClustering sampleCfg (builtinSpi (some lineData)) typeFarOpts (some lineObj) (sampleWorld [5]) = some ((e, p), w') ∧ e ≠ .ok) ∧
    ((scClustering sampleCfg (builtinSpi (some lineData)) typeFarOpts (some lineObj) (sampleWorld [5])).map fun r => r.1.1) = some .noSolution := by
  refine ⟨?_, by decide +kernel⟩
  obtain ⟨e, p, w', h1, -, h3⟩ := C42_no_solution_types lineSpi_nearest typeFarOpts_call (m := .lexical) rfl (by decide) (by decide)
  refine ⟨e, p, w', h1, h3 rfl ?_⟩
  rintro v hv ⟨⟨l, h4, h5, h6⟩, -⟩
  rw [List.mem_singleton] at hv
  subst hv
  have hl : l ⊆ [5] := fun x hx => (by decide : ∀ x, x < 6 → lineData.Within 5 x typeFarOpts.seedSupplied → x ∈ [5]) x (h6 x hx).1 (h6 x hx).2
  have := (List.subperm_of_subset h4 hl).length_le
  rw [h5] at this
  exact absurd this (by decide)

end Scc
