/-
Property C73: options that say the same in different ways give the same result (src/nng_clustering.c:42-236, src/nng_core.c:111-360 and src/nng_batch_clustering.c).
-/
import Verif.Props.FreeRadius
import Verif.Spec.Equivalent

set_option linter.unusedVariables false

namespace Scc

variable {F : Type} [FloatOps F] {A : Criterion F}

/-- C73. Two calls with options that say the same, for the same primary points `P` and the same types: they return the same code and the same clusters. `P` can be given as a list or, when it consists of all
points, be left out. The search determines its answers with their order. -/
theorem C73_equivalent {cfg : Cfg} {spi : Spi F} {dist : Nat → Nat → F} {refuse : Prop} {o o' : Options F} {ob ob' : ClObj} (hn : ob'.cl.n = ob.cl.n) (hs : SpiOk spi ob.cl.n A dist refuse) (hr : ¬ refuse)
    {P : List Nat} {lab c : Nat → Nat} {w w' : World} (ho : Equivalent o o') (hc : CallOk cfg o ob P lab c w) (hc' : CallOk cfg o' ob' P lab c w') {m : SeedMethod}
    (hm : o.seedMethod = .method m) (hacc : Accepts cfg spi.valid spi.numPoints o ob.cl P) (hacc' : Accepts cfg spi.valid spi.numPoints o' ob'.cl P) (hw : w.NoFail) (hw' : w'.NoFail)
    (hbig : ¬ TooBig cfg ob.cl.n o.sizeConstraint m) (hsum : 2 ≤ o.numTypes → sumTo c o.numTypes ≤ o.sizeConstraint) (hone : OneAnswer (Strict ob.cl.n A))
    (hstable : m = .inwardsUpdating ∨ m = .exclusionUpdating → cfg.stableSeeds = true) :
    SameClusters ob.cl.n (scClustering cfg spi o (some ob) w) (scClustering cfg spi o' (some ob') w') := by
  rw [eq_false hr] at hs
  have hT : SameTypes o o' := ho.types
  have h1 := run_undisturbed hs.strict hc hm hacc hw hbig hsum
  have h2 := run_undisturbed (o := o') (ob := ob') (w := w') (hn ▸ hs.strict) hc' (ho.seedMethod.trans hm) hacc' hw' (by rw [hn, ho.size]; exact hbig)
    (fun h => by rw [ho.size, hT.eq h]; exact hsum (hT.eq h ▸ h))
  rw [hn] at h2
  refine Undisturbed.same_one hone hc.arrays.range hacc.options.size_two hstable h1 (h2.accommodate hT ho.size ho.primaryMethod ho.secondaryMethod (by rw [ho.primaryMethod]; exact ho.primaryEstimate)
    (by rw [ho.secondaryMethod]; exact ho.secondaryEstimate) (by rw [ho.seedRadius]; exact .refl _ _) (fun est => ?_) fun est => ?_)
  · rw [ho.primaryMethod, ho.primaryRadius]; exact .refl _ _
  · rw [ho.secondaryMethod, ho.secondaryRadius]; exact .refl _ _

/-- C73 for batches, whose sizes may differ. -/
theorem C73_equivalent_batches {cfg : Cfg} {spi : Spi F} {dist : Nat → Nat → F} {refuse : Prop} {o o' : Options F} {ob ob' : ClObj} (hn : ob'.cl.n = ob.cl.n) (hs : SpiOk spi ob.cl.n A dist refuse) (hr : ¬ refuse)
    {P : List Nat} {lab c : Nat → Nat} {w w' : World} (ho : Equivalent o o') (hc : CallOk cfg o ob P lab c w) (hc' : CallOk cfg o' ob' P lab c w') (hm : o.seedMethod = .batches)
    (hfit : BatchFits o ob.cl.n) (hfit' : BatchFits o' ob.cl.n) (hacc : Accepts cfg spi.valid spi.numPoints o ob.cl P) (hacc' : Accepts cfg spi.valid spi.numPoints o' ob'.cl P)
    (hum : o.primaryMethod = .ignore ∨ o.primaryMethod = .anyNeighbor) (hw : w.NoFail) (hw' : w'.NoFail) (hdet : Determined cfg (Strict ob.cl.n A)) :
    SameClusters ob.cl.n (scClustering cfg spi o (some ob) w) (scClustering cfg spi o' (some ob') w') := by
  classical
  rw [eq_false hr] at hs
  let B : Nat → Option (List Nat) → Prop := Strict ob.cl.n A (List.range ob.cl.n) o.sizeConstraint (seedLimit o)
  obtain ⟨g, hg⟩ : ∃ g : Nat → Option (List Nat), ∀ q a, B q a → a.map (stored cfg) = g q := by
    refine ⟨fun q => if h : ∃ a, B q a then h.choose.map (stored cfg) else none, fun q a ha => ?_⟩
    have hex : ∃ a, B q a := ⟨a, ha⟩
    dsimp only
    rw [dif_pos hex]
    exact hdet.stored_eq ha hex.choose_spec
  obtain ⟨r, v, h1, h2⟩ := scBatches_determined hs.strict hc hm hfit hacc hum hw hg
  obtain ⟨r', v', h1', h2'⟩ := scBatches_determined (o := o') (ob := ob') (w := w') (hn ▸ hs.strict) hc' (ho.seedMethod.trans hm) (hn ▸ hfit') hacc' (ho.primaryMethod ▸ hum) hw' (g := g)
    (by rw [hn, ho.size, ho.seedRadius]; exact hg)
  rw [hn, ho.primaryMethod] at h2'
  rw [h1, h1']
  exact h2.same h2' v v'

/-! ### Examples -/

/-- A list of all seven points, the seed radius supplied again as the radius for primary points, one type instead of none, and other values for radii that are not used. -/
def otherOpts : Options Int :=
  { gapOpts .closestSeed with numTypes := 1, lenPrimary := 7, primary := some (Buf.ofList [0, 1, 2, 3, 4, 5, 6]), seedRadius := .useSupplied, seedSupplied := 6, primaryRadius := .useSupplied, primarySupplied := 6, secondarySupplied := 5, batchSize := 3 }

/-- The same without list, with the setting that uses the seed radius. -/
def briefOpts : Options Int := { gapOpts .closestSeed with seedRadius := .useSupplied, seedSupplied := 6, primaryRadius := .useSeedRadius }

theorem other_equivalent : Equivalent briefOpts otherOpts where
  size := rfl
  types := Or.inr ⟨by decide, by decide⟩
  seedMethod := rfl
  primaryMethod := rfl
  secondaryMethod := rfl
  seedRadius := rfl
  primaryRadius _ := rfl
  secondaryRadius _ := rfl
  primaryEstimate := by simp [UsesEstimate, briefOpts, otherOpts]
  secondaryEstimate := by simp [UsesEstimate, briefOpts, otherOpts]

example : SameClusters 7 (scClustering sampleCfg (builtinSpi (some gapData)) briefOpts (some gapObj) (sampleWorld [5]))
    (scClustering sampleCfg (builtinSpi (some gapData)) otherOpts (some gapObj) (sampleWorld [5])) := by
  have hc := gap_call (Or.inl rfl) .closestSeed
  have ha := gap_accepts (Or.inl rfl) (um := .closestSeed) nofun
  have hall : ∀ i < 7, (Buf.ofList [0, 1, 2, 3, 4, 5, 6]).get i = some i := by decide
  refine C73_equivalent (ob := gapObj) (ob' := gapObj) (m := .lexical) (P := List.range 7) (lab := fun _ => 0) (c := fun _ => 0) rfl (builtinSpi_ok gapData gapData_complete) (fun h => h) other_equivalent
    ⟨hc.config, hc.live, hc.room, ⟨fun _ => rfl, nofun, hc.arrays.range, nofun, nofun⟩, fun _ => ⟨by show 7 * 3 ≤ 2 ^ 64 - 1; decide, fun h => absurd h (by show ¬ 2 ≤ 0; decide)⟩, hc.unchecked⟩
    ⟨hc.config, hc.live, hc.room, ⟨nofun, fun b hb => ?_, hc.arrays.range, fun _ h => absurd h (by show ¬ 2 ≤ 1; decide), fun _ h => absurd h (by show ¬ 2 ≤ 1; decide)⟩, fun _ => ⟨by show 7 * 3 ≤ 2 ^ 64 - 1; decide, fun h => absurd h (by show ¬ 2 ≤ 1; decide)⟩, hc.unchecked⟩ rfl
    ⟨ha.initialized, ha.valid, ha.points, ⟨rfl, by show 2 ≤ 3; decide, by show 3 ≤ 7; decide, Or.inl ⟨by show 0 < 2; decide, rfl, rfl, rfl⟩, nofun, Or.inl ⟨rfl, rfl⟩, nofun, Or.inl rfl,
      ⟨Or.inr rfl, nofun, fun _ => rfl⟩, ⟨nofun, nofun⟩, ⟨nofun, nofun⟩, nofun⟩, ha.empty⟩
    ⟨ha.initialized, ha.valid, ha.points, ⟨rfl, by show 2 ≤ 3; decide, by show 3 ≤ 7; decide, Or.inl ⟨by show 1 < 2; decide, rfl, rfl, rfl⟩, nofun, Or.inr ⟨nofun, nofun, List.pairwise_lt_range⟩, nofun, Or.inl rfl,
      ⟨Or.inr rfl, nofun, fun _ => rfl⟩, ⟨nofun, fun _ => rfl⟩, ⟨nofun, nofun⟩, nofun⟩, ha.empty⟩
    (fun _ _ => rfl) (fun _ _ => rfl) (gap_small (Or.inl rfl)) (fun h => absurd h (by show ¬ 2 ≤ 0; decide)) (builtin_oneAnswer 7 gapData) (by rintro (h | h) <;> cases h)
  cases hb
  refine ⟨by show (List.range 7).length = 7; rfl, fun i x hx => ?_⟩
  obtain ⟨hi, he⟩ := List.getElem?_eq_some_iff.1 hx
  rw [List.length_range] at hi
  rw [hall i hi, ← he, List.getElem_range]

/-- Batches of one size without list, and of another size with a list of all points. -/
example (bs bs' : Nat) : SameClusters 7 (scClustering sortedCfg (builtinSpi (some gapData)) (gapBatch .anyNeighbor bs) (some gapObj) (sampleWorld [5]))
    (scClustering sortedCfg (builtinSpi (some gapData)) { gapBatch .anyNeighbor bs' with lenPrimary := 7, primary := some (Buf.ofList [0, 1, 2, 3, 4, 5, 6]) } (some gapObj) (sampleWorld [5])) := by
  have hc := gapBatch_call .anyNeighbor bs'
  have ha := gapBatch_accepts bs' (um := .anyNeighbor) nofun
  have hall : ∀ i < 7, (Buf.ofList [0, 1, 2, 3, 4, 5, 6]).get i = some i := by decide
  refine C73_equivalent_batches (ob := gapObj) (ob' := gapObj) (P := List.range 7) rfl gap_builtin (fun h => h)
    ⟨rfl, Or.inl rfl, rfl, rfl, rfl, rfl, fun _ => rfl, fun _ => rfl, Iff.rfl, Iff.rfl⟩ (gapBatch_call .anyNeighbor bs)
    ⟨hc.config, hc.live, hc.room, ⟨nofun, fun b hb => ?_, hc.arrays.range, nofun, nofun⟩, fun _ => ⟨by show 7 * 3 ≤ 2 ^ 64 - 1; decide, fun h => absurd h (by show ¬ 2 ≤ 0; decide)⟩, hc.unchecked⟩
    rfl (gapBatch_fits _ bs) (gapBatch_fits .anyNeighbor bs') (gapBatch_accepts bs nofun)
    ⟨ha.initialized, ha.valid, ha.points, ⟨rfl, by show 2 ≤ 3; decide, by show 3 ≤ 7; decide, Or.inl ⟨by show 0 < 2; decide, rfl, rfl, rfl⟩, nofun, Or.inr ⟨nofun, nofun, List.pairwise_lt_range⟩, nofun, Or.inl rfl,
      ⟨Or.inl rfl, nofun, nofun⟩, ⟨nofun, nofun⟩, ⟨nofun, nofun⟩, fun _ => ⟨by show 0 < 2; decide, rfl, rfl⟩⟩, ha.empty⟩
    (Or.inr rfl) (fun _ _ => rfl) (fun _ _ => rfl) (samePoints_determined rfl 7 gapData)
  cases hb
  refine ⟨by show (List.range 7).length = 7; rfl, fun i x hx => ?_⟩
  obtain ⟨hi, he⟩ := List.getElem?_eq_some_iff.1 hx
  rw [List.length_range] at hi
  rw [hall i hi, ← he, List.getElem_range]

end Scc
