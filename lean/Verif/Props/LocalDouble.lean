/-
C81 with the arithmetic of `double`: groups are far apart and distances in the group are distinct without rounding, by a factor of more than `1 + 2^-31`.
-/
import Verif.Props.Local
import Verif.Spec.DoubleMore
import Verif.Proofs.DoubleNear
import Verif.Props.DoubleMore

namespace Scc

/-- Seen from any point, the distances of the other points differ by a factor of more than `1 + 2^-31`. Distances are Euclidean, without rounding. -/
def DataSet.NoNearTies (ds : DataSet Dbl) : Prop :=
  ∀ q x y, q < ds.n → x < ds.n → y < ds.n → x ≠ y → nearFactor * ds.eudist q x < ds.eudist q y ∨ nearFactor * ds.eudist q y < ds.eudist q x

theorem DataSet.FarGroups.separated {ds : DataSet Dbl} (hm : ds.Moderate) {g : Nat → Nat} (h : ds.FarGroups g) : Separated ds.NoFarther ds.n g := fun q x y hq hx hy h1 h2 hle =>
  absurd (noFarther_near hm hq hy hx hle) (not_le.2 (h q x y hq hx hy h1 h2))

theorem DataSet.NoNearTies.eq {ds : DataSet Dbl} (hm : ds.Moderate) (h : ds.NoNearTies) {q x y : Nat} (hq : q < ds.n) (hx : x < ds.n) (hy : y < ds.n) (h1 : ds.NoFarther q x y) (h2 : ds.NoFarther q y x) : x = y := by
  by_contra hne
  rcases h q x y hq hx hy hne with h3 | h3
  · exact absurd (noFarther_near hm hq hy hx h2) (not_le.2 h3)
  · exact absurd (noFarther_near hm hq hx hy h1) (not_le.2 h3)

/-- C81 for data sets of `double` values, in spite of rounding. -/
theorem C81_groups_independent_double {cfg : Cfg} {ds ds' : DataSet Dbl} (hmod : ds.Moderate) (hmod' : ds'.Moderate) {ι g : Nat → Nat} {γ : Nat} (hι : Picks ds.n ds'.n ι) (hds : SubData ds'.n ι ds ds')
    (hsep : ds.FarGroups g) (hg : IsGroup ds.n ds'.n ι g γ) (hties : ds'.NoNearTies) {o o' : Options Dbl} {ob ob' : ClObj} (hn : ob.cl.n = ds.n) (hn' : ob'.cl.n = ds'.n)
    {P P' : List Nat} {lab c lab' c' : Nat → Nat} {w w' : World} (hc : CallOk cfg o ob P lab c w) (hc' : CallOk cfg o' ob' P' lab' c' w') (hbig : GroupsLarge ds.n o P lab c g) (ho : SameSettings o o')
    (hty : PartTypes ds'.n ι o.numTypes lab c lab' c') (hP : ∀ i, i < ds'.n → (i ∈ P' ↔ ι i ∈ P)) {m : SeedMethod} (hm : o.seedMethod = .method m)
    (hacc : Accepts cfg (builtinSpi (some ds)).valid (builtinSpi (some ds)).numPoints o ob.cl P) (hacc' : Accepts cfg (builtinSpi (some ds')).valid (builtinSpi (some ds')).numPoints o' ob'.cl P')
    (hw : w.NoFail) (hw' : w'.NoFail) (hsmall : ¬ TooBig cfg ds.n o.sizeConstraint m) (hsum : 2 ≤ o.numTypes → sumTo c o.numTypes ≤ o.sizeConstraint)
    (hest : ¬ UsesEstimate o.primaryMethod o.primaryRadius ∧ ¬ UsesEstimate o.secondaryMethod o.secondaryRadius) (hstable : m = .inwardsUpdating ∨ m = .exclusionUpdating → cfg.stableSeeds = true) :
    (∃ r b v r' b' v', scClustering cfg (builtinSpi (some ds)) o (some ob) w = some ((.ok, some r), v) ∧ r.cl.label = some b ∧
      scClustering cfg (builtinSpi (some ds')) o' (some ob') w' = some ((.ok, some r'), v') ∧ r'.cl.label = some b' ∧ SameInPart cfg ds'.n ι b.buf b'.buf) ∨
    (∃ p v, scClustering cfg (builtinSpi (some ds')) o' (some ob') w' = some ((.noSolution, p), v)) ∧ o.seedRadius = .useSupplied :=
  C81_groups_independent_builtin Dbl.laws hmod.finite.complete hmod'.finite.complete (fun i j hi hj => (hmod.finite.metric.sqnum i j hi hj).1) hι hds (hsep.separated hmod) hg hn hn' hc hc' hbig ho hty hP hm hacc hacc'
    hw hw' hsmall hsum hest (fun q x y hq hx hy h1 h2 => hties.eq hmod' hq hx hy h1 h2) hstable

/-- C81 in batches for data sets of `double` values. -/
theorem C81_groups_independent_batches_double {cfg : Cfg} {ds ds' : DataSet Dbl} (hmod : ds.Moderate) (hmod' : ds'.Moderate) {ι g : Nat → Nat} {γ : Nat} (hι : Picks ds.n ds'.n ι) (hds : SubData ds'.n ι ds ds')
    (hsep : ds.FarGroups g) (hg : IsGroup ds.n ds'.n ι g γ) (hties : ds'.NoNearTies) {o o' : Options Dbl} {ob ob' : ClObj} (hn : ob.cl.n = ds.n) (hn' : ob'.cl.n = ds'.n)
    {P P' : List Nat} {lab c lab' c' : Nat → Nat} {w w' : World} (hc : CallOk cfg o ob P lab c w) (hc' : CallOk cfg o' ob' P' lab' c' w') (hbig : GroupsLarge ds.n o P lab c g) (ho : SameSettings o o')
    (hP : ∀ i, i < ds'.n → (i ∈ P' ↔ ι i ∈ P)) (hm : o.seedMethod = .batches) (hum : o.primaryMethod = .ignore ∨ o.primaryMethod = .anyNeighbor) (hfit : BatchFits o ds.n) (hfit' : BatchFits o' ds'.n)
    (hacc : Accepts cfg (builtinSpi (some ds)).valid (builtinSpi (some ds)).numPoints o ob.cl P) (hacc' : Accepts cfg (builtinSpi (some ds')).valid (builtinSpi (some ds')).numPoints o' ob'.cl P')
    (hw : w.NoFail) (hw' : w'.NoFail) (hmax : ds.n ≤ cfg.clabelMax) :
    (∃ cl b v cl' b' v', scClustering cfg (builtinSpi (some ds)) o (some ob) w = some ((.ok, some ⟨ob.id, cl⟩), v) ∧ cl.label = some b ∧
      scClustering cfg (builtinSpi (some ds')) o' (some ob') w' = some ((.ok, some ⟨ob'.id, cl'⟩), v') ∧ cl'.label = some b' ∧ SameInPart cfg ds'.n ι b.buf b'.buf) ∨
    (∃ p v, scClustering cfg (builtinSpi (some ds')) o' (some ob') w' = some ((.noSolution, p), v)) ∧ o.seedRadius = .useSupplied := by
  have s1 := builtinSpi_nearest Dbl.laws ds hmod.finite.complete fun i j hi hj => (hmod.finite.metric.sqnum i j hi hj).1
  have s2 := builtinSpi_nearest Dbl.laws ds' hmod'.finite.complete fun i j hi hj => (hmod'.finite.metric.sqnum i j hi hj).1
  have hd : SameNearby ds'.n ι ds.NoFarther ds'.NoFarther ds.Within ds'.Within :=
    ⟨fun i x y hi hx hy => by unfold DataSet.NoFarther; rw [hds.sqd hi hx, hds.sqd hi hy], fun i x r hi hx => by unfold DataSet.Within; rw [hds.sqd hi hx]⟩
  have ht : ∀ q x y, q < ds'.n → x < ds'.n → y < ds'.n → ds'.NoFarther q x y → ds'.NoFarther q y x → x = y := fun q x y hq hx hy h1 h2 => hties.eq hmod' hq hx hy h1 h2
  have hsep := hsep.separated hmod
  rw [← hn] at s1 hι hsep hg hbig hfit hmax
  rw [← hn'] at s2 hι hg hP ht hd hfit' ⊢
  exact C81_groups_independent_batches s1 s2 hι hd hsep hg hc hc' hbig ho hP hm hum hfit hfit' hacc hacc' hw hw' hmax ht

/-- The last three of the six points. -/
noncomputable def lastDbl : DataSet Dbl := intLine [20, 21, 23]

theorem lastDbl_noNearTies : lastDbl.NoNearTies := by
  intro q x y hq hx hy hne
  have hq : q < 3 := hq
  have hx : x < 3 := hx
  have hy : y < 3 := hy
  have e : ∀ x, x < 3 → lastDbl.eudist q x = ((|[20, 21, 23].getD q 0 - [20, 21, 23].getD x 0| : ℤ) : ℝ) := fun x hx => intLine_eudist _ hq hx
  rw [e x hx, e y hy]
  have hf : nearFactor < 5 / 4 := by
    unfold nearFactor
    norm_num
  have key : ∀ a b : ℤ, 0 ≤ a → 5 * a < 4 * b → nearFactor * (a : ℝ) < (b : ℝ) := by
    intro a b ha h
    have h' : (5 : ℝ) * a < 4 * b := by exact_mod_cast h
    have ha' : (0 : ℝ) ≤ a := by exact_mod_cast ha
    have := mul_le_mul_of_nonneg_right hf.le ha'
    linarith
  rcases (by decide : ∀ q x y : Fin 3, x ≠ y → 5 * |[20, 21, 23].getD q (0 : ℤ) - [20, 21, 23].getD x 0| < 4 * |[20, 21, 23].getD q 0 - [20, 21, 23].getD y 0| ∨
    5 * |[20, 21, 23].getD q (0 : ℤ) - [20, 21, 23].getD y 0| < 4 * |[20, 21, 23].getD q 0 - [20, 21, 23].getD x 0|) ⟨q, hq⟩ ⟨x, hx⟩ ⟨y, hy⟩ (fun h => hne (Fin.mk.inj h)) with h | h
  · exact Or.inl (key _ _ (abs_nonneg _) h)
  · exact Or.inr (key _ _ (abs_nonneg _) h)

def threeObj : ClObj := ⟨5, clusteringVersion, 3, 0, none, false⟩

theorem lastDbl_sub : SubData 3 (fun i => i + 3) groupsDbl lastDbl := by
  refine ⟨rfl, rfl, ?_⟩
  intro i t hi ht
  have ht : t < 1 := ht
  have hi : i < 3 := hi
  unfold DataSet.coord
  have e1 : i * lastDbl.dims + t = i := by show i * 1 + t = i; omega
  have e2 : (i + 3) * groupsDbl.dims + t = i + 3 := by show (i + 3) * 1 + t = i + 3; omega
  rw [e1, e2, show lastDbl.buf.get i = _ from intLine_get _ hi, show groupsDbl.buf.get (i + 3) = _ from intLine_get _ (by show i + 3 < 6; omega),
    (by decide : ∀ i < 3, [20, 21, 23].getD i (0 : ℤ) = [0, 1, 3, 20, 21, 23].getD (i + 3) 0) i hi]

theorem three_callOk {o : Options Dbl} (h1 : o.sizeConstraint = 2) (h2 : o.numTypes = 0) (h3 : o.primary = none) : CallOk sampleCfg o threeObj (List.range 3) (fun _ => 0) (fun _ => 0) (sampleWorld [5]) where
  config := sampleCfg_valid
  live := by simp [threeObj, sampleWorld, ptrOwn, ptrIds]
  room := by intro lb h; cases h
  arrays := ⟨fun _ => rfl, fun b h => (by rw [h3] at h; cases h), fun x hx => List.mem_range.1 hx, fun b h => (by omega), fun b h => (by omega)⟩
  limits := fun _ => ⟨by rw [h1]; show 3 * 2 ≤ 2 ^ 64 - 1; decide, fun h => by omega⟩
  unchecked := fun _ => rfl

theorem last_picks : Picks 6 3 fun i => i + 3 := ⟨fun i hi => (by decide : ∀ i < 3, i + 3 < 6) i hi, fun i j h _ => by show i + 3 < j + 3; omega⟩

theorem last_group : IsGroup 6 3 (fun i => i + 3) (fun v => v / 3) 1 := fun x hx => (by decide : ∀ x < 6, (x / 3 = 1 ↔ ∃ i, i < 3 ∧ i + 3 = x)) x hx

/-- The last three points are divided as if the other three were not there. -/
example (um : UnassignedMethod) (hum : um ≠ .unknown) : ∃ r b v r' b' v',
    scClustering sampleCfg (builtinSpi (some groupsDbl)) (dblOpts um .useSeedRadius) (some lineObj) (sampleWorld [5]) = some ((.ok, some r), v) ∧ r.cl.label = some b ∧
    scClustering sampleCfg (builtinSpi (some lastDbl)) (dblOpts um .useSeedRadius) (some threeObj) (sampleWorld [5]) = some ((.ok, some r'), v') ∧ r'.cl.label = some b' ∧
    SameInPart sampleCfg 3 (fun i => i + 3) b.buf b'.buf := by
  have hv : ∀ {n : Nat}, 2 ≤ n → ValidOptions (dblOpts um .useSeedRadius) n (List.range n) := fun hn =>
    ⟨rfl, le_refl 2, hn, Or.inl ⟨by show 0 < 2; decide, rfl, rfl, rfl⟩, nofun, Or.inl ⟨rfl, rfl⟩, hum, Or.inl rfl, ⟨Or.inl rfl, nofun, nofun⟩, ⟨nofun, nofun⟩, ⟨nofun, nofun⟩, nofun⟩
  refine (C81_groups_independent_double (cfg := sampleCfg) (ds := groupsDbl) (ds' := lastDbl) (ι := fun i => i + 3) (g := fun v => v / 3) (γ := 1) (ob := lineObj) (ob' := threeObj) (m := .lexical)
    (o := dblOpts um .useSeedRadius) (o' := dblOpts um .useSeedRadius) groupsDbl_moderate (intLine_moderate (by decide))
    last_picks lastDbl_sub
    (groupsDbl_far fun _ _ _ _ => Iff.rfl) last_group lastDbl_noNearTies rfl rfl
    (dbl_callOk rfl rfl rfl rfl rfl)
    (three_callOk rfl rfl rfl)
    (groupsDbl_large rfl rfl _ _)
    ⟨rfl, rfl, rfl, ⟨rfl, rfl⟩, ⟨rfl, rfl, rfl⟩, ⟨rfl, rfl, rfl⟩⟩ (fun h => absurd h (by show ¬ 2 ≤ 0; decide)) (fun i hi => (by decide : ∀ i < 3, (i ∈ List.range 3 ↔ i + 3 ∈ List.range 6)) i hi) rfl
    ⟨rfl, rfl, by decide, hv (by decide), rfl⟩ ⟨rfl, rfl, by decide, hv (by decide), rfl⟩ (fun _ _ => rfl) (fun _ _ => rfl)
    (show ¬ TooBig sampleCfg 6 2 .lexical by simp [TooBig, SeedMethod.IsExclusion]; decide) (fun h => absurd h (by show ¬ 2 ≤ 0; decide)) ⟨fun h => absurd h.2 (by show ¬ RadiusMethod.useSeedRadius = .useEstimated; decide), fun h => absurd h.2 (by show ¬ RadiusMethod.useSeedRadius = .useEstimated; decide)⟩
    (by rintro (h | h) <;> cases h)).resolve_right fun h => absurd h.2 (by show ¬ RadiusMethod.noRadius = .useSupplied; decide)

/-- The same in batches, with batches of other sizes for the part. -/
example (bs bs' : Nat) : ∃ cl b v cl' b' v',
    scClustering sampleCfg (builtinSpi (some groupsDbl)) { (dblOpts .anyNeighbor .useSeedRadius) with seedMethod := .batches, batchSize := bs } (some lineObj) (sampleWorld [5]) = some ((.ok, some ⟨5, cl⟩), v) ∧ cl.label = some b ∧
    scClustering sampleCfg (builtinSpi (some lastDbl)) { (dblOpts .anyNeighbor .useSeedRadius) with seedMethod := .batches, batchSize := bs' } (some threeObj) (sampleWorld [5]) = some ((.ok, some ⟨5, cl'⟩), v') ∧ cl'.label = some b' ∧
    SameInPart sampleCfg 3 (fun i => i + 3) b.buf b'.buf := by
  have hv : ∀ {n : Nat} (bs : Nat), 2 ≤ n → ValidOptions { (dblOpts .anyNeighbor .useSeedRadius) with seedMethod := .batches, batchSize := bs } n (List.range n) := fun bs hn =>
    ⟨rfl, le_refl 2, hn, Or.inl ⟨by show 0 < 2; decide, rfl, rfl, rfl⟩, nofun, Or.inl ⟨rfl, rfl⟩, nofun, Or.inl rfl, ⟨Or.inl rfl, nofun, nofun⟩, ⟨nofun, nofun⟩, ⟨nofun, nofun⟩, fun _ => ⟨by show 0 < 2; decide, rfl, rfl⟩⟩
  exact (C81_groups_independent_batches_double (cfg := sampleCfg) (ds := groupsDbl) (ds' := lastDbl) (ob := lineObj) (ob' := threeObj) (o := { (dblOpts .anyNeighbor .useSeedRadius) with seedMethod := .batches, batchSize := bs })
    (o' := { (dblOpts .anyNeighbor .useSeedRadius) with seedMethod := .batches, batchSize := bs' }) groupsDbl_moderate (intLine_moderate (by decide)) last_picks lastDbl_sub
    (groupsDbl_far fun _ _ _ _ => Iff.rfl) last_group lastDbl_noNearTies rfl rfl (dbl_callOk rfl rfl rfl rfl rfl) (three_callOk rfl rfl rfl) (groupsDbl_large rfl rfl _ _)
    ⟨rfl, rfl, rfl, ⟨rfl, rfl⟩, ⟨rfl, rfl, rfl⟩, ⟨rfl, rfl, rfl⟩⟩ (fun i hi => (by decide : ∀ i < 3, (i ∈ List.range 3 ↔ i + 3 ∈ List.range 6)) i hi) rfl (Or.inr rfl)
    (by
      show 2 * (if bs = 0 then 6 else min bs 6) < 2 ^ 32
      split <;> omega)
    (by
      show 2 * (if bs' = 0 then 3 else min bs' 3) < 2 ^ 32
      split <;> omega)
    ⟨rfl, rfl, by decide, hv bs (by decide), rfl⟩ ⟨rfl, rfl, by decide, hv bs' (by decide), rfl⟩ (fun _ _ => rfl) (fun _ _ => rfl) (by show 6 ≤ sampleCfg.clabelMax; decide)).resolve_right
    fun h => absurd h.2 (by show ¬ RadiusMethod.noRadius = .useSupplied; decide)

end Scc
