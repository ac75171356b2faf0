/-
C38: what happens when requests for memory fail. The claim holds for the requests whose result the code checks, except for a leak; it is false for the others.
-/
import Verif.Proofs.Failing
import Verif.Props.Batches

set_option linter.unusedSimpArgs false
set_option linter.unusedVariables false

namespace Scc

variable {F : Type} [FloatOps F]

/-! ### What holds -/

theorem Untouched.label_eq {cl cl' : Clustering} (h : Untouched cl cl') : cl'.label = cl.label := by
  rw [h.flag]

/-- Disjoint clusters of at least one point: there are no more clusters than points. -/
theorem SeqOk.count_le {n S : Nat} {st : SeqState} (h : SeqOk n S st) (hS : 0 < S) : st.clusters.length ≤ n := by
  have h1 : st.clusters.flatten.Nodup := by
    rw [List.nodup_flatten]
    exact ⟨fun c hc => (h.size c hc).2.1, h.disjoint.imp fun hd x hx hy => hd x hx hy⟩
  have h2 : st.clusters.flatten ⊆ List.range n := by
    intro x hx
    obtain ⟨c, hc, hx⟩ := List.mem_flatten.1 hx
    exact List.mem_range.2 ((h.size c hc).2.2 x hx)
  have h3 := (List.subperm_of_subset h1 h2).length_le
  rw [List.length_range] at h3
  have h4 : ∀ L : List (List Nat), (∀ c ∈ L, 0 < c.length) → L.length ≤ L.flatten.length := by
    intro L
    induction L with
    | nil => intro _; simp
    | cons c L ih =>
      intro hL
      have h5 := ih fun d hd => hL d (by simp [hd])
      have h6 := hL c (by simp)
      simp only [List.flatten_cons, List.length_append, List.length_cons]
      omega
  exact (h4 _ fun c hc => by rw [(h.size c hc).1]; exact hS).trans h3

/-- C38, restricted to requests that the code checks (`CallOk.unchecked`): whatever requests fail, an accepted call on a problem that has a solution returns. It returns "ok" or
reports the failure, and afterwards the heap holds the same blocks as before and possibly a new label array, and with the exclusion methods at most one lost block. Missing: failures of the
unchecked requests, and the absence of that lost block, for which the claim is false (`C38_fails_exclusion`, `C38_fails_any_neighbor`, `C38_fails_closest_seed`, `C38_fails_batches`,
`C38_fails_leak`). -/
theorem C38_failures_reported_partial {cfg : Cfg} {spi : Spi F} {A : Criterion F} {dist : Nat → Nat → F} {o : Options F} {ob : ClObj}
    (hs : SpiOk spi ob.cl.n A dist False) {P : List Nat} {lab c : Nat → Nat} {w : World} (hc : CallOk cfg o ob P lab c w) {m : SeedMethod} (hm : o.seedMethod = .method m)
    (hacc : Accepts cfg spi.valid spi.numPoints o ob.cl P) (hsol : Solvable cfg A dist ob.cl.n o m P lab c) :
    ∃ e cl' w' leak M, scClustering cfg spi o (some ob) w = some ((e, some ⟨ob.id, cl'⟩), w') ∧
      (e = .ok ∨ w'.err.code = e ∧ ((e = .noMemory ∨ e = .distSearch) ∧ ¬ w.NoFail ∨ e = .tooLarge ∧ m.IsExclusion ∧ (cfg.arcMax < ob.cl.n * ob.cl.n ∨ cfg.sizeMax < ob.cl.n * ob.cl.n))) ∧
      w.live = ptrOwn ob.cl.label + M ∧ w'.live = leak + (ptrOwn cl'.label + M) ∧ (leak = 0 ∨ m.IsExclusion ∧ e ≠ .ok ∧ leak.card = 1) := by
  obtain ⟨⟨e, p⟩, w', h1, h2⟩ := scClustering_spec hs hc hm
  rcases h2 with h2 | ⟨-, -, M, cl', hlive, hp, h2⟩
  · exact absurd hacc fun h => h2.cause.not_accepts h
  dsimp only at hp
  subst hp
  have hlab : ∀ k id l cl', Labelled ob.cl k id l cl' → ptrOwn cl'.label = {id} := fun k id l cl' hl => by rw [hl.eq]; simp [ptrOwn, ptrIds]
  cases h2 with
  | done _ _ rows order L2 L3 L id l data lab' live =>
    exact ⟨.ok, cl', w', 0, M, h1, Or.inl rfl, hlive, by rw [hlab _ _ _ _ lab', live]; simp, Or.inl rfl⟩
  | early _ _ _ leak cause unt err live leaked =>
    refine ⟨e, cl', w', leak, M, h1, Or.inr ⟨err, ?_⟩, hlive, by rw [live, unt.label_eq], ?_⟩
    · rcases cause with (⟨rfl, h⟩ | ⟨rfl, h⟩ | ⟨rfl, h⟩) | ⟨-, h | ⟨rows, order, h3, -, h4, h5⟩⟩ | ⟨-, h3, h4⟩
      · refine Or.inr ⟨rfl, ?_⟩
        have h3 := hsol.arcs
        have h4 := hsol.labels
        rcases h with h | h | h
        · omega
        · omega
        · exact h
      · exact Or.inl ⟨Or.inl rfl, h⟩
      · exact Or.inl ⟨Or.inr rfl, h.resolve_right fun x => x⟩
      · exact absurd h hsol.seeds
      · exact absurd h5 (hsol.estimate rows order h3 h4.1)
      · have := hsol.types h3; omega
    · rcases leaked with h | ⟨h3, -, h4⟩ | ⟨h3, -, h4⟩
      · exact Or.inl h
      · exact Or.inr ⟨h3, cause.ne_ok, h4⟩
      · exact Or.inr ⟨h3, cause.ne_ok, h4⟩
  | late _ _ _ L id l cause err search labels lt pos cap lab' live =>
    refine ⟨e, cl', w', 0, M, h1, Or.inr ⟨err, ?_⟩, hlive, by rw [hlab _ _ _ _ lab', live]; simp, Or.inl rfl⟩
    rcases cause with ⟨-, h⟩ | ⟨rfl, h⟩ | ⟨rfl, h⟩
    · exact h.elim
    · exact Or.inl ⟨Or.inl rfl, h⟩
    · exact Or.inl ⟨Or.inr rfl, h.resolve_right fun x => x⟩

/-- The same for batches. No block is lost. -/
theorem C38_failures_reported_batches_partial {cfg : Cfg} {spi : Spi F} {A : Criterion F} {dist : Nat → Nat → F} {o : Options F} {ob : ClObj}
    (hs : SpiOk spi ob.cl.n A dist False) {P : List Nat} {lab c : Nat → Nat} {w : World} (hc : CallOk cfg o ob P lab c w) (hm : o.seedMethod = .batches) (hfit : BatchFits o ob.cl.n)
    (hacc : Accepts cfg spi.valid spi.numPoints o ob.cl P) (hum : o.primaryMethod = .ignore ∨ o.primaryMethod = .anyNeighbor) (hn : ob.cl.n ≤ cfg.clabelMax) :
    ∃ e cl' w' M, scClustering cfg spi o (some ob) w = some ((e, some ⟨ob.id, cl'⟩), w') ∧
      (e = .ok ∨ w'.err.code = e ∧ ((e = .noMemory ∨ e = .distSearch) ∧ ¬ w.NoFail ∨ e = .noSolution)) ∧
      w.live = ptrOwn ob.cl.label + M ∧ w'.live = ptrOwn cl'.label + M := by
  obtain ⟨⟨e, p⟩, w', h1, h2⟩ := scBatches_spec hs hc hm hfit
  have hlab : ∀ k id l cl', Labelled ob.cl k id l cl' → ptrOwn cl'.label = {id} := fun k id l cl' hl => by rw [hl.eq]; simp [ptrOwn, ptrIds]
  have hS := hacc.options.size_two
  rcases h2 with h2 | ⟨-, -, ⟨⟨h3, h4⟩, -⟩ | ⟨-, M, cl', hlive, hp, h2⟩⟩
  · exact absurd hacc fun h => h2.cause.not_accepts h
  · rcases hum with h | h
    · exact absurd h h3
    · exact absurd h h4
  · dsimp only at hp
    subst hp
    cases h2 with
    | done _ _ evs id l run count pos cap labels lab' live => exact ⟨.ok, cl', w', M, h1, Or.inl rfl, hlive, by rw [hlab _ _ _ _ lab', live]⟩
    | failed _ _ _ cause err after =>
      refine ⟨e, cl', w', M, h1, Or.inr ⟨err, ?_⟩, hlive, ?_⟩
      · rcases cause with ⟨rfl, evs, rest, h3, h4, h5⟩ | ⟨rfl, h⟩ | ⟨rfl, h⟩
        · exfalso
          have hr : ∀ x ∈ evs.map Prod.fst, x < ob.cl.n := fun x hx => hc.arrays.range x (by rw [← h4]; simp [hx])
          have := (h3.seqOk (by omega) hr).count_le (by omega)
          omega
        · exact Or.inl ⟨Or.inl rfl, h⟩
        · exact Or.inl ⟨Or.inr rfl, h.resolve_right fun x => x⟩
      · rcases after with ⟨h, h'⟩ | ⟨id, l, h, h'⟩
        · rw [h', h.label_eq]
        · rw [h', hlab _ _ _ _ h]
    | noSeeds _ _ evs id l run none err labels lab' live => exact ⟨.noSolution, cl', w', M, h1, Or.inr ⟨err, Or.inr rfl⟩, hlive, by rw [hlab _ _ _ _ lab', live]⟩

/-! ### What fails

In each of the following theorems the call is accepted, the problem has a solution, and without the failures the call would succeed. -/

/-- C38 is false: with an exclusion method, when the allocation of the array of non-excluded indices fails, the code goes on and uses freed memory. This holds for every such call. -/
theorem C38_fails_exclusion {cfg : Cfg} {spi : Spi F} {A : Criterion F} {dist : Nat → Nat → F} {o : Options F} {ob : ClObj} {P : List Nat} {lab c : Nat → Nat} {w : World} {m : SeedMethod}
    (hs : SpiOk spi ob.cl.n A dist False) (hspi : SpiChecked spi) (hc : CallOk cfg o ob P lab c w) (hacc : Accepts cfg spi.valid spi.numPoints o ob.cl P)
    (hsol : Solvable cfg A dist ob.cl.n o m P lab c) (hw : w.NoFail) (hm : o.seedMethod = .method m) (he : m.IsExclusion) {f : Nat → Bool → Bool} (hf : OnlyUncheckedFail f) :
    scClustering cfg spi o (some ob) (w.withFails f) = none := exclusion_undef hs hspi hc hacc hsol hw hm he hf

/-- C38 is false: with an exclusion method and some point that may not be a seed, when the requests after the search for such points fail, the call reports this but loses a block. -/
theorem C38_fails_leak {cfg : Cfg} {spi : Spi F} {A : Criterion F} {dist : Nat → Nat → F} {o : Options F} {ob : ClObj} {P : List Nat} {lab c : Nat → Nat} {w : World} {m : SeedMethod}
    (hs : SpiOk spi ob.cl.n A dist False) (hspi : SpiChecked spi) (hc : CallOk cfg o ob P lab c w) (hacc : Accepts cfg spi.valid spi.numPoints o ob.cl P)
    (hsol : Solvable cfg A dist ob.cl.n o m P lab c) (hw : w.NoFail) (hm : o.seedMethod = .method m) (he : m.IsExclusion) {v : Nat} (hv : v < ob.cl.n) (hvP : v ∉ P) :
    ∃ (f : Nat → Bool → Bool) (w' : World) (x : Nat), scClustering cfg spi o (some ob) (w.withFails f) = some ((.noMemory, some ob), w') ∧ x ∉ w.live ∧ w'.live = {x} + w.live :=
  exclusion_leak hs hspi hc hacc hsol hw hm he hv hvP

/-- C38 is false: when points shall get the cluster of any neighbour and the scratch array for this cannot be allocated, the call returns "ok" but leaves points without a cluster. -/
theorem C38_fails_any_neighbor {cfg : Cfg} {spi : Spi F} {A : Criterion F} {dist : Nat → Nat → F} {o : Options F} {ob : ClObj} {P : List Nat} {lab c : Nat → Nat} {w : World} {m : SeedMethod}
    (hs : SpiOk spi ob.cl.n A dist False) (hspi : SpiChecked spi) (hc : CallOk cfg o ob P lab c w) (hacc : Accepts cfg spi.valid spi.numPoints o ob.cl P)
    (hsol : Solvable cfg A dist ob.cl.n o m P lab c) (hw : w.NoFail) (hm : o.seedMethod = .method m) (he : ¬ m.IsExclusion) (hT : o.numTypes < 2) (hd : ¬ o.sizeConstraint ∣ ob.cl.n)
    (h1 : o.primaryMethod = .anyNeighbor) (h2 : o.secondaryMethod = .ignore) {f : Nat → Bool → Bool} (hf : OnlyUncheckedFail f) :
    ∃ cl' b w', scClustering cfg spi o (some ob) (w.withFails f) = some ((.ok, some ⟨ob.id, cl'⟩), w') ∧ w'.err.code = .noMemory ∧ cl'.label = some b ∧ 0 < cl'.numClusters ∧
      ∃ v < ob.cl.n, b.buf.get v = some cfg.na := anyNeighbor_lost hs hspi hc hacc hsol hw hm he hT hd h1 h2 hf

/-- C38 is false: with the built-in search, when remaining points shall get the cluster of the closest seed and the array for the answers cannot be allocated, the answers are written to a
null array. -/
theorem C38_fails_closest_seed {cfg : Cfg} {ds : DataSet F} {A : Criterion F} {dist : Nat → Nat → F} {o : Options F} {ob : ClObj} {P : List Nat} {lab c : Nat → Nat} {w : World} {m : SeedMethod}
    (hs : SpiOk (builtinSpi (some ds)) ob.cl.n A dist False) (hc : CallOk cfg o ob P lab c w) (hacc : Accepts cfg (builtinSpi (some ds)).valid (builtinSpi (some ds)).numPoints o ob.cl P)
    (hsol : Solvable cfg A dist ob.cl.n o m P lab c) (hw : w.NoFail) (hm : o.seedMethod = .method m) (he : ¬ m.IsExclusion) (hT : o.numTypes < 2) (hd : ¬ o.sizeConstraint ∣ ob.cl.n)
    (h1 : o.primaryMethod = .closestSeed) (h2 : o.primaryRadius = .noRadius) (h3 : o.primary = none) {f : Nat → Bool → Bool} (hf : OnlyUncheckedFail f) :
    scClustering cfg (builtinSpi (some ds)) o (some ob) (w.withFails f) = none := closestSeed_undef hs hc hacc hsol hw hm he hT hd h1 h2 h3 hf

/-- C38 is false: with batches and a list of primary points, when the array that marks these points cannot be allocated, marks are written to a null array. -/
theorem C38_fails_batches {cfg : Cfg} {spi : Spi F} {A : Criterion F} {dist : Nat → Nat → F} {o : Options F} {ob : ClObj} {P : List Nat} {lab c : Nat → Nat} {w : World}
    (hs : SpiOk spi ob.cl.n A dist False) (hspi : SpiChecked spi) (hc : CallOk cfg o ob P lab c w) (hacc : Accepts cfg spi.valid spi.numPoints o ob.cl P) (hw : w.NoFail)
    (hm : o.seedMethod = .batches) (hum : o.primaryMethod = .ignore ∨ o.primaryMethod = .anyNeighbor) (hP : o.primary ≠ none) {f : Nat → Bool → Bool} (hf : OnlyUncheckedFail f) :
    scClustering cfg spi o (some ob) (w.withFails f) = none := batches_undef hs hspi hc hacc hw hm hum hP hf

/-! ### Concrete calls for which this holds: six points on a line and clusters of four points -/

/-- Options for clusters of at least four points, with points 0 to 3 as primary points or without a list of primary points. -/
def fourOpts (m : OptSeedMethod) (um : UnassignedMethod) (pr : RadiusMethod) (list : Bool) : Options Int :=
  { (defaultOptions : Options Int) with sizeConstraint := 4, seedMethod := m, primaryMethod := um, primaryRadius := pr, lenPrimary := (if list then 4 else 0), primary := (if list then some (Buf.ofList [0, 1, 2, 3]) else none) }

/-- The primary points. -/
def fourP (list : Bool) : List Nat := if list then [0, 1, 2, 3] else List.range 6

/-- The schedule in which exactly the requests fail that the code does not check. -/
def uncheckedFail : Nat → Bool → Bool := fun _ c => !c

theorem uncheckedFail_only : OnlyUncheckedFail uncheckedFail := fun _ => ⟨rfl, rfl⟩

theorem four_call (m : OptSeedMethod) (um : UnassignedMethod) (pr : RadiusMethod) (list : Bool) :
    CallOk sampleCfg (fourOpts m um pr list) lineObj (fourP list) (fun _ => 0) (fun _ => 0) (sampleWorld [5]) := by
  refine line_callOk ?_ ⟨by show 6 * 4 ≤ 2 ^ 64 - 1; decide, fun h => absurd h (by show ¬ 2 ≤ 0; decide)⟩
  cases list with
  | false => exact ⟨fun _ => rfl, nofun, fun x hx => List.mem_range.1 hx, nofun, nofun⟩
  | true => exact ⟨nofun, fun b h => by cases h; exact ⟨rfl, fun i x hx => (Buf.get_ofList _ _).trans hx⟩, by decide, nofun, nofun⟩

theorem four_accepts {m : OptSeedMethod} {um : UnassignedMethod} {pr : RadiusMethod} (list : Bool) (h1 : m ≠ .unknown) (h2 : um ≠ .unknown) (h3 : pr = .noRadius ∨ pr = .useSeedRadius)
    (h4 : m = .batches → pr = .useSeedRadius) :
    Accepts sampleCfg (builtinSpi (some lineData)).valid (builtinSpi (some lineData)).numPoints (fourOpts m um pr list) lineObj.cl (fourP list) := by
  refine ⟨by decide, by decide, by decide, ⟨rfl, by show 2 ≤ 4; decide, by show 4 ≤ 6; decide, Or.inl ⟨by show 0 < 2; decide, rfl, rfl, rfl⟩, h1, ?_, h2, Or.inl rfl, ⟨Or.inl rfl, nofun, nofun⟩, ?_,
    ⟨nofun, nofun⟩, fun h => ⟨by show 0 < 2; decide, rfl, h4 h⟩⟩, rfl⟩
  · cases list with
    | false => exact Or.inl ⟨rfl, rfl⟩
    | true => exact Or.inr ⟨nofun, nofun, by decide⟩
  · rcases h3 with rfl | rfl
    · exact ⟨nofun, nofun⟩
    · exact ⟨nofun, nofun⟩

theorem four_solvable {m : SeedMethod} {um : UnassignedMethod} {pr : RadiusMethod} (list : Bool) (h3 : pr = .noRadius ∨ pr = .useSeedRadius) :
    Solvable sampleCfg lineA lineData.dist 6 (fourOpts (.method m) um pr list) m (fourP list) (fun _ => 0) (fun _ => 0) where
  arcs := by show 6 * 4 ≤ 2 ^ 32 - 1; decide
  labels := by decide
  seeds := by
    rintro (⟨-, h, -⟩ | ⟨h, -⟩)
    · exact h rfl
    · exact absurd h (by show ¬ 2 ≤ 0; decide)
  estimate := by
    rintro rows order - - ⟨⟨-, h⟩ | ⟨h, -⟩, -⟩
    · rcases h3 with rfl | rfl <;> cases h
    · exact h rfl
  types := fun h => absurd h (by show ¬ 2 ≤ 0; decide)

/-- The world in which the hypotheses are met but some (checked) requests fail. -/
example : ∃ w : World, ¬ w.NoFail ∧ CallOk sampleCfg (fourOpts (.method .lexical) .anyNeighbor .noRadius true) lineObj (fourP true) (fun _ => 0) (fun _ => 0) w ∧
    Accepts sampleCfg (builtinSpi (some lineData)).valid (builtinSpi (some lineData)).numPoints (fourOpts (.method .lexical) .anyNeighbor .noRadius true) lineObj.cl (fourP true) ∧
    Solvable sampleCfg lineA lineData.dist 6 (fourOpts (.method .lexical) .anyNeighbor .noRadius true) .lexical (fourP true) (fun _ => 0) (fun _ => 0) := by
  have h := four_call (.method .lexical) .anyNeighbor .noRadius true
  refine ⟨(sampleWorld [5]).withFails fun i c => decide (110 ≤ i) && c, fun h => absurd (h 110 true) (by decide), ⟨h.config, h.live, h.room, h.arrays, h.limits, fun i => ?_⟩,
    four_accepts true nofun nofun (Or.inl rfl) nofun, four_solvable true (Or.inl rfl)⟩
  show (decide (110 ≤ i) && false) = false
  simp

/-- The same for batches. -/
example : ∃ w : World, ¬ w.NoFail ∧ CallOk sampleCfg (fourOpts .batches .anyNeighbor .useSeedRadius true) lineObj (fourP true) (fun _ => 0) (fun _ => 0) w ∧
    Accepts sampleCfg (builtinSpi (some lineData)).valid (builtinSpi (some lineData)).numPoints (fourOpts .batches .anyNeighbor .useSeedRadius true) lineObj.cl (fourP true) ∧
    BatchFits (fourOpts .batches .anyNeighbor .useSeedRadius true) 6 ∧ 6 ≤ sampleCfg.clabelMax := by
  have h := four_call .batches .anyNeighbor .useSeedRadius true
  refine ⟨(sampleWorld [5]).withFails fun i c => decide (102 ≤ i) && c, fun h => absurd (h 102 true) (by decide), ⟨h.config, h.live, h.room, h.arrays, h.limits, fun i => ?_⟩,
    four_accepts true nofun nofun (Or.inr rfl) fun _ => rfl, by show 4 * 6 < 2 ^ 32; decide, by decide⟩
  show (decide (102 ≤ i) && false) = false
  simp

theorem C38_fails_exclusion_witness :
    scClustering sampleCfg (builtinSpi (some lineData)) (fourOpts (.method .exclusionUpdating) .anyNeighbor .noRadius false) (some lineObj) ((sampleWorld [5]).withFails uncheckedFail) = none :=
  C38_fails_exclusion (m := .exclusionUpdating) lineSpi_ok (builtinSpi_checked _) (four_call (.method .exclusionUpdating) .anyNeighbor .noRadius false) (four_accepts (m := (.method .exclusionUpdating)) (um := .anyNeighbor) (pr := .noRadius) false nofun nofun (Or.inl rfl) nofun) (four_solvable false (Or.inl rfl)) (fun _ _ => rfl) rfl
    (Or.inr rfl) uncheckedFail_only

theorem C38_fails_leak_witness : ∃ (f : Nat → Bool → Bool) (w' : World) (x : Nat),
    scClustering sampleCfg (builtinSpi (some lineData)) (fourOpts (.method .exclusionUpdating) .anyNeighbor .noRadius true) (some lineObj) ((sampleWorld [5]).withFails f) =
      some ((.noMemory, some lineObj), w') ∧ x ∉ ({5} : Multiset Nat) ∧ w'.live = {x} + {5} :=
  C38_fails_leak (m := .exclusionUpdating) (w := sampleWorld [5]) lineSpi_ok (builtinSpi_checked _) (four_call (.method .exclusionUpdating) .anyNeighbor .noRadius true) (four_accepts (m := (.method .exclusionUpdating)) (um := .anyNeighbor) (pr := .noRadius) true nofun nofun (Or.inl rfl) nofun) (four_solvable true (Or.inl rfl))
    (fun _ _ => rfl) rfl (Or.inr rfl) (v := 4) (by decide) (by decide)

theorem C38_fails_any_neighbor_witness : ∃ cl' b w',
    scClustering sampleCfg (builtinSpi (some lineData)) (fourOpts (.method .lexical) .anyNeighbor .noRadius false) (some lineObj) ((sampleWorld [5]).withFails uncheckedFail) =
      some ((.ok, some ⟨5, cl'⟩), w') ∧ w'.err.code = .noMemory ∧ cl'.label = some b ∧ 0 < cl'.numClusters ∧ ∃ v < 6, b.buf.get v = some sampleCfg.na :=
  C38_fails_any_neighbor (m := .lexical) lineSpi_ok (builtinSpi_checked _) (four_call (.method .lexical) .anyNeighbor .noRadius false) (four_accepts (m := (.method .lexical)) (um := .anyNeighbor) (pr := .noRadius) false nofun nofun (Or.inl rfl) nofun) (four_solvable false (Or.inl rfl))
    (fun _ _ => rfl) rfl (by decide) (by decide) (by decide) rfl rfl uncheckedFail_only

theorem C38_fails_closest_seed_witness :
    scClustering sampleCfg (builtinSpi (some lineData)) (fourOpts (.method .lexical) .closestSeed .noRadius false) (some lineObj) ((sampleWorld [5]).withFails uncheckedFail) = none :=
  C38_fails_closest_seed (m := .lexical) lineSpi_ok (four_call (.method .lexical) .closestSeed .noRadius false) (four_accepts (m := (.method .lexical)) (um := .closestSeed) (pr := .noRadius) false nofun nofun (Or.inl rfl) nofun) (four_solvable false (Or.inl rfl))
    (fun _ _ => rfl) rfl (by decide) (by decide) (by decide) rfl rfl rfl uncheckedFail_only

theorem C38_fails_batches_witness :
    scClustering sampleCfg (builtinSpi (some lineData)) (fourOpts .batches .anyNeighbor .useSeedRadius true) (some lineObj) ((sampleWorld [5]).withFails uncheckedFail) = none :=
  C38_fails_batches lineSpi_ok (builtinSpi_checked _) (four_call .batches .anyNeighbor .useSeedRadius true) (four_accepts (m := .batches) (um := .anyNeighbor) (pr := .useSeedRadius) true nofun nofun (Or.inr rfl) fun _ => rfl) (fun _ _ => rfl) rfl (Or.inr rfl) nofun uncheckedFail_only

end Scc
