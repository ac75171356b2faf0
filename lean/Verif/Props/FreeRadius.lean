/-
Property C72: a radius that excludes no point has no effect (src/nng_core.c:111-184, 186-360, 700-1040, src/nng_batch_clustering.c and src/dist_search_imp.c:150-260).
-/
import Verif.Props.StableTypes
import Verif.Props.Assert
import Verif.Spec.FreeRadius

set_option linter.unusedVariables false

namespace Scc

variable {F : Type} [FloatOps F] {A : Criterion F} {n : Nat}

omit [FloatOps F] in
theorem NoEffect.accommodates {r : F} (h : NoEffect n A r) : Accommodates (Strict n A) none (some r) where
  crit set k q a := by
    rintro ⟨h1, h2, h3, h4, h5⟩
    cases a with
    | none => exact absurd rfl (h2.1 rfl)
    | some l => exact ⟨h set k q l h4 h5 (h2.2 l rfl).2.2 h1, ⟨nofun, h2.2⟩, h3, h4, h5⟩
  none := nofun

omit [FloatOps F] in
theorem Accommodates.refl (A : Criterion F) (R : Option F) : Accommodates A R R := ⟨fun _ _ _ _ h => h, fun h => h⟩

omit [FloatOps F] in
theorem WithoutRadii.seedLimit {o o' : Options F} (h : WithoutRadii n A o o') : Accommodates (Strict n A) (seedLimit o') (seedLimit o) := by
  have hsup : o'.seedSupplied = o.seedSupplied := by rw [h.rest]
  unfold Scc.seedLimit
  rw [hsup]
  rcases h.seed with h | ⟨h1, h2, h3⟩
  · rw [h]; exact .refl _ _
  · rw [h1, h2, if_neg (by decide), if_pos rfl]
    exact h3.accommodates

omit [FloatOps F] in
theorem WithoutRadii.stage {o o' : Options F} (h : WithoutRadii n A o o') (um : UnassignedMethod) {m m' : RadiusMethod} {r : F} (hm : Dropped n A m r m') (est : F) :
    Accommodates (Strict n A) (stageRadius o' um m' r est) (stageRadius o um m r est) := by
  rcases hm with rfl | ⟨rfl, rfl, h3⟩
  · unfold stageRadius
    cases um <;> cases m' <;> first | exact .refl _ _ | exact h.seedLimit
  · unfold stageRadius
    cases um <;> first | exact .refl _ _ | exact h3.accommodates

omit [FloatOps F] in
theorem Dropped.estimated {m m' : RadiusMethod} {r : F} (h : Dropped n A m r m') (um : UnassignedMethod) : UsesEstimate um m' ↔ UsesEstimate um m := by
  rcases h with rfl | ⟨rfl, rfl, -⟩
  · rfl
  · simp [UsesEstimate]

theorem Dropped.valid {m m' : RadiusMethod} {r : F} (h : Dropped n A m r m') (hv : ValidRadius m r) : ValidRadius m' r := by
  rcases h with rfl | ⟨rfl, rfl, -⟩
  · exact hv
  · exact ⟨nofun, nofun⟩

/-- The options without the radii are accepted, too. -/
theorem WithoutRadii.valid {o o' : Options F} {k : Nat} {P : List Nat} (h : WithoutRadii n A o o') (hv : ValidOptions o k P) : ValidOptions o' k P := by
  obtain ⟨hr, h1, h2, h3⟩ := h
  have hb : o.seedMethod = .batches → o'.primaryRadius = .useSeedRadius := fun hm => by
    rcases h2 with h2 | ⟨h2, -⟩
    · rw [h2]; exact (hv.batches hm).2.2
    · rw [(hv.batches hm).2.2] at h2; cases h2
  have hs : o'.seedRadius = .noRadius ∨ o'.seedRadius = .useSupplied := by
    rcases h1 with h1 | ⟨-, h1, -⟩
    · rw [h1]; exact hv.seedRadius.1
    · exact Or.inl h1
  have g1 := h1.valid hv.seedRadius.2
  have g2 := h2.valid hv.primaryRadius
  have g3 := h3.valid hv.secondaryRadius
  generalize o'.seedRadius = s at *
  generalize o'.primaryRadius = p at *
  generalize o'.secondaryRadius = q at *
  subst hr
  exact ⟨hv.version, hv.size_two, hv.size_le, hv.types, hv.seed, hv.primary, hv.primaryMethod, hv.secondaryMethod, ⟨hs, g1⟩, g2, g3, fun hm => ⟨(hv.batches hm).1, (hv.batches hm).2.1, hb hm⟩⟩

omit [FloatOps F] in
theorem WithoutRadii.arrays {o o' : Options F} {k : Nat} {P : List Nat} {lab c : Nat → Nat} (h : WithoutRadii n A o o') (ha : OptionArrays k o P lab c) : OptionArrays k o' P lab c := by
  obtain ⟨hr, -⟩ := h
  generalize o'.seedRadius = s at *
  generalize o'.primaryRadius = p at *
  generalize o'.secondaryRadius = q at *
  subst hr
  exact ⟨ha.all, ha.primary, ha.range, ha.labels, ha.constraints⟩

omit [FloatOps F] in
theorem WithoutRadii.limits {cfg : Cfg} {o o' : Options F} {k : Nat} {c : Nat → Nat} (h : WithoutRadii n A o o') (ha : WithinLimits cfg k o c) : WithinLimits cfg k o' c := by
  obtain ⟨hr, -⟩ := h
  generalize o'.seedRadius = s at *
  generalize o'.primaryRadius = p at *
  generalize o'.secondaryRadius = q at *
  subst hr
  exact ⟨ha.size, ha.types⟩

/-- C72. A supplied radius that excludes nothing has no effect: a call with it returns the same code and the same clusters as a call without radius. The search determines its answers with their order. -/
theorem C72_free_radius {cfg : Cfg} {spi : Spi F} {dist : Nat → Nat → F} {refuse : Prop} {o o' : Options F} {ob ob' : ClObj} (hn : ob'.cl.n = ob.cl.n) (hs : SpiOk spi ob.cl.n A dist refuse) (hr : ¬ refuse)
    {P : List Nat} {lab c : Nat → Nat} {w w' : World} (ho : WithoutRadii ob.cl.n A o o') (hc : CallOk cfg o ob P lab c w) (hc' : CallOk cfg o ob' P lab c w') {m : SeedMethod}
    (hm : o.seedMethod = .method m) (hacc : Accepts cfg spi.valid spi.numPoints o ob.cl P) (hacc' : Accepts cfg spi.valid spi.numPoints o ob'.cl P) (hw : w.NoFail) (hw' : w'.NoFail)
    (hbig : ¬ TooBig cfg ob.cl.n o.sizeConstraint m) (hsum : 2 ≤ o.numTypes → sumTo c o.numTypes ≤ o.sizeConstraint) (hone : OneAnswer (Strict ob.cl.n A))
    (hstable : m = .inwardsUpdating ∨ m = .exclusionUpdating → cfg.stableSeeds = true) :
    SameClusters ob.cl.n (scClustering cfg spi o (some ob) w) (scClustering cfg spi o' (some ob') w') := by
  rw [eq_false hr] at hs
  have hT : o'.numTypes = o.numTypes := by rw [ho.rest]
  have hS : o'.sizeConstraint = o.sizeConstraint := by rw [ho.rest]
  have hp1 : o'.primarySupplied = o.primarySupplied := by rw [ho.rest]
  have hp2 : o'.secondarySupplied = o.secondarySupplied := by rw [ho.rest]
  have hm1 : o'.primaryMethod = o.primaryMethod := by rw [ho.rest]
  have hm2 : o'.secondaryMethod = o.secondaryMethod := by rw [ho.rest]
  have hm' : o'.seedMethod = .method m := by rw [ho.rest]; exact hm
  have h1 := run_undisturbed hs.strict hc hm hacc hw hbig hsum
  have h2 := run_undisturbed (o := o') (ob := ob') (w := w') (hn ▸ hs.strict) ⟨hc'.config, hc'.live, hc'.room, ho.arrays hc'.arrays, fun _ => ho.limits (hc'.limits hacc'.options), hc'.unchecked⟩ hm'
    ⟨hacc'.initialized, hacc'.valid, hacc'.points, ho.valid hacc'.options, hacc'.empty⟩ hw' (by rw [hn, hS]; exact hbig) (by rw [hT, hS]; exact hsum)
  rw [hn] at h2
  refine Undisturbed.same_one hone hc.arrays.range hacc.options.size_two hstable h1 (h2.accommodate (Or.inl hT) hS hm1 hm2 (hm1 ▸ ho.primary.estimated _) (hm2 ▸ ho.secondary.estimated _) ho.seedLimit (fun est => ?_) fun est => ?_)
  · rw [hm1, hp1]; exact ho.stage _ ho.primary est
  · rw [hm2, hp2]; exact ho.stage _ ho.secondary est

/-- The results of two calls that go through the same sequence. -/
theorem SeqResult.same {cfg : Cfg} {k id id' : Nat} {st : SeqState} {r r' : ErrorCode × Option ClObj} (h : SeqResult cfg k id st r) (h' : SeqResult cfg k id' st r') (v v' : World) :
    SameClusters k (some (r, v)) (some (r', v')) := by
  cases h with
  | ok cl b pos cap count label points labels =>
    cases h' with
    | ok cl' b' pos' cap' count' label' points' labels' =>
      exact ⟨_, _, _, _, _, rfl, rfl, fun _ => ⟨_, _, b, b', rfl, rfl, label, label', by rw [count, count'], fun v hv => ⟨_, labels v hv, labels' v hv⟩⟩⟩
    | tooLarge p big => omega
    | noSeeds cl b none count label labels => rw [none] at pos; simp at pos
  | tooLarge p big =>
    cases h' with
    | ok cl' b' pos' cap' count' label' points' labels' => omega
    | tooLarge p big => exact ⟨_, _, _, _, _, rfl, rfl, nofun⟩
    | noSeeds cl b none count label labels => rw [none] at big; simp at big
  | noSeeds cl b none count label labels =>
    cases h' with
    | ok cl' b' pos' cap' count' label' points' labels' => rw [none] at pos'; simp at pos'
    | tooLarge p big => rw [none] at big; simp at big
    | noSeeds cl b none count label labels => exact ⟨_, _, _, _, _, rfl, rfl, nofun⟩

/-- C72 for batches. -/
theorem C72_free_radius_batches {cfg : Cfg} {spi : Spi F} {dist : Nat → Nat → F} {refuse : Prop} {o o' : Options F} {ob ob' : ClObj} (hn : ob'.cl.n = ob.cl.n) (hs : SpiOk spi ob.cl.n A dist refuse)
    (hr : ¬ refuse) {P : List Nat} {lab c : Nat → Nat} {w w' : World} (ho : WithoutRadii ob.cl.n A o o') (hc : CallOk cfg o ob P lab c w) (hc' : CallOk cfg o ob' P lab c w')
    (hm : o.seedMethod = .batches) (hfit : BatchFits o ob.cl.n) (hacc : Accepts cfg spi.valid spi.numPoints o ob.cl P) (hacc' : Accepts cfg spi.valid spi.numPoints o ob'.cl P)
    (hum : o.primaryMethod = .ignore ∨ o.primaryMethod = .anyNeighbor) (hw : w.NoFail) (hw' : w'.NoFail) (hone : OneAnswer (Strict ob.cl.n A)) :
    SameClusters ob.cl.n (scClustering cfg spi o (some ob) w) (scClustering cfg spi o' (some ob') w') := by
  classical
  rw [eq_false hr] at hs
  have hS : o'.sizeConstraint = o.sizeConstraint := by rw [ho.rest]
  have hm1 : o'.primaryMethod = o.primaryMethod := by rw [ho.rest]
  have hm' : o'.seedMethod = .batches := by rw [ho.rest]; exact hm
  have hfit' : BatchFits o' ob.cl.n := by rw [ho.rest]; exact hfit
  let B : Nat → Option (List Nat) → Prop := Strict ob.cl.n A (List.range ob.cl.n) o.sizeConstraint (seedLimit o)
  obtain ⟨g, hg⟩ : ∃ g : Nat → Option (List Nat), ∀ q a, B q a → a.map (stored cfg) = g q := by
    refine ⟨fun q => if h : ∃ a, B q a then h.choose.map (stored cfg) else none, fun q a ha => ?_⟩
    have hex : ∃ a, B q a := ⟨a, ha⟩
    dsimp only
    rw [dif_pos hex, hone _ _ _ _ _ _ hex.choose_spec ha]
  obtain ⟨r, v, h1, h2⟩ := scBatches_determined hs.strict hc hm hfit hacc hum hw hg
  obtain ⟨r', v', h1', h2'⟩ := scBatches_determined (o := o') (ob := ob') (w := w') (hn ▸ hs.strict)
    ⟨hc'.config, hc'.live, hc'.room, ho.arrays hc'.arrays, fun _ => ho.limits (hc'.limits hacc'.options), hc'.unchecked⟩ hm' (hn ▸ hfit')
    ⟨hacc'.initialized, hacc'.valid, hacc'.points, ho.valid hacc'.options, hacc'.empty⟩ (hm1 ▸ hum) hw' (g := g) (by rw [hn, hS]; exact fun q a h => hg q a (ho.seedLimit.crit _ _ _ _ h))
  rw [hn, hm1] at h2'
  rw [h1, h1']
  exact h2.same h2' v v'

theorem collect_inside {k : Nat} {rsq : F} : ∀ (xs acc : List (F × Nat)), (∀ x ∈ xs, FloatOps.lt rsq x.1 = false) → collect k (some rsq) acc xs = collect k none acc xs
  | [], acc, _ => rfl
  | x :: xs, acc, h => by
    unfold collect
    simp only [Option.any_some, Option.any_none, h x (List.mem_cons_self ..), Bool.false_eq_true, ↓reduceIte]
    split
    · rfl
    · exact collect_inside xs _ fun y hy => h y (List.mem_cons_of_mem _ hy)

/-- For the built-in search a radius excludes nothing when no distance exceeds it. -/
theorem builtin_noEffect {ds : DataSet F} {r : F} (h : ds.Inside r) : NoEffect ds.n (fun set k radius q a => a = nnAnswer (ds.sqd q) set k radius) r := by
  intro set k q l h1 h2 _ h3
  rw [h3]
  unfold nnAnswer
  rw [Option.map_some, Option.map_none, collect_inside]
  intro x hx
  obtain ⟨j, hj, rfl⟩ := List.mem_map.1 hx
  exact h q j h2 (h1 j hj)

/-- C72 for the built-in distance functions: a call with a seed radius that no distance between data points exceeds, and a call without seed radius. -/
theorem C72_seed_radius {cfg : Cfg} {ds : DataSet F} (hcomp : ds.Complete) {o : Options F} {ob : ClObj} (hn : ob.cl.n = ds.n) (hr : o.seedRadius = .useSupplied) (hin : ds.Inside o.seedSupplied)
    {P : List Nat} {lab c : Nat → Nat} {w : World} (hc : CallOk cfg o ob P lab c w) {m : SeedMethod} (hm : o.seedMethod = .method m)
    (hacc : Accepts cfg (builtinSpi (some ds)).valid (builtinSpi (some ds)).numPoints o ob.cl P) (hw : w.NoFail) (hbig : ¬ TooBig cfg ob.cl.n o.sizeConstraint m)
    (hsum : 2 ≤ o.numTypes → sumTo c o.numTypes ≤ o.sizeConstraint) (hstable : m = .inwardsUpdating ∨ m = .exclusionUpdating → cfg.stableSeeds = true) :
    SameClusters ob.cl.n (scClustering cfg (builtinSpi (some ds)) o (some ob) w) (scClustering cfg (builtinSpi (some ds)) { o with seedRadius := .noRadius } (some ob) w) :=
  C72_free_radius rfl (hn ▸ builtinSpi_ok ds hcomp) (fun h => h) ⟨rfl, Or.inr ⟨hr, rfl, hn ▸ builtin_noEffect hin⟩, Or.inl rfl, Or.inl rfl⟩ hc hc hm hacc hacc hw hw hbig hsum
    (hn ▸ builtin_oneAnswer ds.n ds) hstable

/-! ### Examples -/

/-- A NaN is accepted as a radius and has no effect. -/
example : SameClusters 6 (scClustering sampleCfg (builtinSpi (some nanLine)) nanOpts (some lineObj) (sampleWorld [5]))
    (scClustering sampleCfg (builtinSpi (some nanLine)) { nanOpts with seedRadius := .noRadius } (some lineObj) (sampleWorld [5])) := by
  obtain ⟨h1, h2, -⟩ := C69_clustering_fails
  refine C72_seed_radius (m := .lexical) ?_ rfl rfl (fun _ _ _ _ => rfl) h1 rfl h2 (fun _ _ => rfl) ?_ nofun (by rintro (h | h) <;> cases h)
  · have h6 : ∀ i, i < 6 → (nanLine.buf.get i).isSome = true := by decide
    exact fun i hi => Option.isSome_iff_exists.1 (h6 i hi)
  · simp [TooBig, SeedMethod.IsExclusion]
    show 6 * 2 ≤ 2 ^ 32 - 1 ∧ 6 ≤ 2 ^ 31 - 1
    decide

/-- Radii for all stages, of which the seed radius and the radius for primary points are no smaller than the largest distance of the seven points. -/
def wideOpts : Options Int := { gapOpts .closestAssigned with seedRadius := .useSupplied, seedSupplied := 15, primaryRadius := .useSupplied, primarySupplied := 20, secondaryMethod := .closestSeed, secondaryRadius := .useSupplied, secondarySupplied := 3 }

theorem wide_accepts : Accepts sampleCfg (builtinSpi (some gapData)).valid (builtinSpi (some gapData)).numPoints wideOpts gapObj.cl (List.range 7) where
  initialized := by decide
  valid := by decide
  points := by decide
  options := ⟨rfl, by show 2 ≤ 3; decide, by show 3 ≤ 7; decide, Or.inl ⟨by show 0 < 2; decide, rfl, rfl, rfl⟩, nofun, Or.inl ⟨rfl, rfl⟩, nofun, Or.inr (Or.inr rfl), ⟨Or.inr rfl, nofun, fun _ => rfl⟩,
    ⟨nofun, fun _ => rfl⟩, ⟨nofun, fun _ => rfl⟩, nofun⟩
  empty := rfl

theorem gap_inside {r : Int} (h : 225 ≤ r * r) : gapData.Inside r := by
  have key : ∀ q < 7, ∀ x < 7, gapData.sqd q x ≤ 225 := by decide +kernel
  intro q x hq hx
  have := key q hq x hx
  show decide (r * r < gapData.sqd q x) = false
  simp only [decide_eq_false_iff_not]
  omega

example : SameClusters 7 (scClustering sampleCfg (builtinSpi (some gapData)) wideOpts (some gapObj) (sampleWorld [5]))
    (scClustering sampleCfg (builtinSpi (some gapData)) { wideOpts with seedRadius := .noRadius, primaryRadius := .noRadius } (some gapObj) (sampleWorld [5])) := by
  have hc := gap_call (Or.inl rfl) .closestAssigned
  have hc' : CallOk sampleCfg wideOpts gapObj (List.range 7) (fun _ => 0) (fun _ => 0) (sampleWorld [5]) :=
    ⟨hc.config, hc.live, hc.room, ⟨fun _ => rfl, nofun, hc.arrays.range, nofun, nofun⟩, fun _ => ⟨by show 7 * 3 ≤ 2 ^ 64 - 1; decide, fun h => absurd h (by show ¬ 2 ≤ 0; decide)⟩, hc.unchecked⟩
  exact C72_free_radius (ob := gapObj) (ob' := gapObj) (m := .lexical) rfl (builtinSpi_ok gapData gapData_complete) (fun h => h)
    ⟨rfl, Or.inr ⟨rfl, rfl, builtin_noEffect (gap_inside (by decide))⟩, Or.inr ⟨rfl, rfl, builtin_noEffect (gap_inside (by decide))⟩, Or.inl rfl⟩ hc' hc' rfl wide_accepts wide_accepts
    (fun _ _ => rfl) (fun _ _ => rfl) (gap_small (Or.inl rfl)) (fun h => absurd h (by show ¬ 2 ≤ 0; decide)) (builtin_oneAnswer 7 gapData) (by rintro (h | h) <;> cases h)

/-- A radius that excludes points can have an effect. -/
example : hiSummary (scClustering sampleCfg (builtinSpi (some nanLine)) { nanOpts with seedSupplied := some 6 } (some lineObj) (sampleWorld [5])) ≠
    hiSummary (scClustering sampleCfg (builtinSpi (some nanLine)) { nanOpts with seedRadius := .noRadius } (some lineObj) (sampleWorld [5])) := by
  decide +kernel

/-- Batches with a seed radius. -/
def wideBatch (bs : Nat) : Options Int := { gapBatch .anyNeighbor bs with seedRadius := .useSupplied, seedSupplied := 15 }

example (bs : Nat) : SameClusters 7 (scClustering sortedCfg (builtinSpi (some gapData)) (wideBatch bs) (some gapObj) (sampleWorld [5]))
    (scClustering sortedCfg (builtinSpi (some gapData)) { wideBatch bs with seedRadius := .noRadius } (some gapObj) (sampleWorld [5])) := by
  have hc := gapBatch_call .anyNeighbor bs
  have hc' : CallOk sortedCfg (wideBatch bs) gapObj (List.range 7) (fun _ => 0) (fun _ => 0) (sampleWorld [5]) :=
    ⟨hc.config, hc.live, hc.room, ⟨fun _ => rfl, nofun, hc.arrays.range, nofun, nofun⟩, fun _ => ⟨by show 7 * 3 ≤ 2 ^ 64 - 1; decide, fun h => absurd h (by show ¬ 2 ≤ 0; decide)⟩, hc.unchecked⟩
  have ha := gapBatch_accepts bs (um := .anyNeighbor) nofun
  have ha' : Accepts sortedCfg (builtinSpi (some gapData)).valid (builtinSpi (some gapData)).numPoints (wideBatch bs) gapObj.cl (List.range 7) :=
    ⟨ha.initialized, ha.valid, ha.points, ⟨rfl, by show 2 ≤ 3; decide, by show 3 ≤ 7; decide, Or.inl ⟨by show 0 < 2; decide, rfl, rfl, rfl⟩, nofun, Or.inl ⟨rfl, rfl⟩, nofun, Or.inl rfl,
      ⟨Or.inr rfl, nofun, fun _ => rfl⟩, ⟨nofun, nofun⟩, ⟨nofun, nofun⟩, fun _ => ⟨by show 0 < 2; decide, rfl, rfl⟩⟩, ha.empty⟩
  have h15 : gapData.Inside (15 : Int) := gap_inside (by decide)
  exact C72_free_radius_batches (o := wideBatch bs) (o' := { wideBatch bs with seedRadius := .noRadius }) (ob := gapObj) (ob' := gapObj) rfl (builtinSpi_ok gapData gapData_complete) (fun h => h)
    ⟨rfl, Or.inr ⟨rfl, rfl, builtin_noEffect h15⟩, Or.inl rfl, Or.inl rfl⟩ hc' hc' rfl (gapBatch_fits .anyNeighbor bs) ha' ha' (Or.inr rfl) (fun _ _ => rfl) (fun _ _ => rfl)
    (builtin_oneAnswer 7 gapData)

end Scc
