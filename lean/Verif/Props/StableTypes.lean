/-
Properties C70 and C71: what the clusters depend on when there are type constraints (src/nng_core.c:186-360, 1044-1064).

C70: builds with `SCC_STABLE_NNG` do not remove the dependence on the order in which the search reports points when there are type constraints.
C71: the names of the types have no effect, apart from the order of arcs in builds without the flag.
-/
import Verif.Proofs.RunSame

set_option linter.unusedVariables false

namespace Scc

variable {F : Type} [FloatOps F]

/-! ### C70 -/

/-- C70 when the search determines its answers with their order: then the result of a call, with or without types, is determined. It does not depend on the search back end, on the clustering object
or on the process.

Missing for the full property: searches that report the same points in different orders. For them see `C70_full_types_partial` and `C70_fails`. -/
theorem C70_same_order_partial {cfg : Cfg} {spi spi' : Spi F} {A : Criterion F} {dist : Nat → Nat → F} {refuse refuse' : Prop} {o : Options F} {ob ob' : ClObj} (hn : ob'.cl.n = ob.cl.n)
    (hs : SpiOk spi ob.cl.n A dist refuse) (hs' : SpiOk spi' ob.cl.n A dist refuse') (hr : ¬ refuse) (hr' : ¬ refuse') {P : List Nat} {lab c : Nat → Nat} {w w' : World}
    (hc : CallOk cfg o ob P lab c w) (hc' : CallOk cfg o ob' P lab c w') {m : SeedMethod} (hm : o.seedMethod = .method m)
    (hacc : Accepts cfg spi.valid spi.numPoints o ob.cl P) (hacc' : Accepts cfg spi'.valid spi'.numPoints o ob'.cl P) (hw : w.NoFail) (hw' : w'.NoFail)
    (hbig : ¬ TooBig cfg ob.cl.n o.sizeConstraint m) (hsum : 2 ≤ o.numTypes → sumTo c o.numTypes ≤ o.sizeConstraint) (hone : OneAnswer (Strict ob.cl.n A))
    (hstable : m = .inwardsUpdating ∨ m = .exclusionUpdating → cfg.stableSeeds = true) :
    SameClusters ob.cl.n (scClustering cfg spi o (some ob) w) (scClustering cfg spi' o (some ob') w') := by
  rw [eq_false hr] at hs
  rw [eq_false hr', ← hn] at hs'
  have h1 := run_undisturbed hs.strict hc hm hacc hw hbig hsum
  have h2 := run_undisturbed hs'.strict hc' hm hacc' hw' (by rw [hn]; exact hbig) hsum
  rw [hn] at h2
  exact Undisturbed.same_one hone hc.arrays.range hacc.options.size_two hstable h1 h2

/-- C70 when the type constraints add up to the size constraint and a point is among the nearest points of its own type: in builds with `SCC_STABLE_NNG` the order in which the search reports the points
has no effect.

Missing for the full property: size constraints that leave points to choose after the type constraints. For them see `C70_fails`. -/
theorem C70_full_types_partial {cfg : Cfg} (hst : cfg.stableNng = true) {spi spi' : Spi F} {A : Criterion F} {dist : Nat → Nat → F} {refuse refuse' : Prop} {o : Options F} {ob ob' : ClObj} (hn : ob'.cl.n = ob.cl.n)
    (hs : SpiOk spi ob.cl.n A dist refuse) (hs' : SpiOk spi' ob.cl.n A dist refuse') (hr : ¬ refuse) (hr' : ¬ refuse') {P : List Nat} {lab c : Nat → Nat} {w w' : World}
    (hc : CallOk cfg o ob P lab c w) (hc' : CallOk cfg o ob' P lab c w') {m : SeedMethod} (hm : o.seedMethod = .method m)
    (hacc : Accepts cfg spi.valid spi.numPoints o ob.cl P) (hacc' : Accepts cfg spi'.valid spi'.numPoints o ob'.cl P) (hw : w.NoFail) (hw' : w'.NoFail)
    (hbig : ¬ TooBig cfg ob.cl.n o.sizeConstraint m) (ht : 2 ≤ o.numTypes) (hsum : sumTo c o.numTypes = o.sizeConstraint) (hdet : Determined cfg (Strict ob.cl.n A))
    (hself : ∀ v ∈ P, 0 < c (lab v) → ∀ a, Strict ob.cl.n A (typeGroup ob.cl.n lab (lab v)) (c (lab v)) (seedLimit o) v (some a) → v ∈ a)
    (hstable : m = .inwardsUpdating ∨ m = .exclusionUpdating → cfg.stableSeeds = true) :
    SameClusters ob.cl.n (scClustering cfg spi o (some ob) w) (scClustering cfg spi' o (some ob') w') := by
  rw [eq_false hr] at hs
  rw [eq_false hr', ← hn] at hs'
  have h1 := run_undisturbed hs.strict hc hm hacc hw hbig fun _ => Nat.le_of_eq hsum
  have h2 := run_undisturbed hs'.strict hc' hm hacc' hw' (by rw [hn]; exact hbig) fun _ => Nat.le_of_eq hsum
  rw [hn] at h2
  have hid := Renamed.refl ob.cl.n o.numTypes lab c
  refine Undisturbed.same hdet (.refl o) hc.arrays.range hacc.options.size_two hacc.options.size_two (fun g1 g2 v hv => ?_) (fun h hne => h.not_noSeeds hdet ht ht rfl rfl hid hne)
    (fun h hne => h.not_noSeeds hdet ht ht rfl rfl hid hne) hstable h1 h2
  obtain ⟨r, ⟨g0, -⟩ | ⟨-, g1⟩, he⟩ := g1
  · omega
  obtain ⟨r', ⟨g0, -⟩ | ⟨-, g2⟩, he'⟩ := g2
  · omega
  rw [he, he']
  exact stored_congr hst (TypeNng.full hdet hst hsum (fun v hv _ => hself v hv) g1 g2 hv)

/-- Four points on a line. -/
def mixData : DataSet Int := mkData 1 [0, 1, 3, 100]

/-- An empty clustering object for four points. -/
def mixObj : ClObj := ⟨5, clusteringVersion, 4, 0, none, false⟩

/-- Clusters of at least `S` points with one point of each of two types; the points 0, 1 and 2 are of type 0, the point 3 is of type 1. -/
def mixOpts (S : Nat) : Options Int :=
  { (defaultOptions : Options Int) with sizeConstraint := S, numTypes := 2, typeConstraints := some (Buf.ofList [1, 1]), lenTypeLabels := 4, typeLabels := some (Buf.ofList [0, 0, 0, 1]), primaryMethod := .ignore, primaryRadius := .noRadius }

/-- The types of the four points. -/
def mixLab (v : Nat) : Nat := if v = 3 then 1 else 0

/-- The error code, the number of clusters and the labels. -/
def mixResult (cfg : Cfg) (spi : Spi Int) (S : Nat) : Option (ErrorCode × Nat × List Int) :=
  (scClustering cfg spi (mixOpts S) (some mixObj) (sampleWorld [5])).bind fun r => r.1.2.bind fun ob => ob.cl.label.bind fun b => (b.buf.read 4).map fun l => (r.1.1, ob.cl.numClusters, l)

theorem mixData_complete : mixData.Complete := mkData_complete (by decide)

theorem mix_call {S : Nat} (hS : S = 2 ∨ S = 3) : CallOk sortedCfg (mixOpts S) mixObj (List.range 4) mixLab (fun _ => 1) (sampleWorld [5]) where
  config := ⟨by decide, by decide, by decide, by decide, by decide⟩
  live := by simp [mixObj, sampleWorld, ptrOwn, ptrIds]
  room := by intro lb h; cases h
  arrays := by
    refine ⟨fun _ => rfl, nofun, fun x hx => List.mem_range.1 hx, fun b _ hb v hv => ?_, fun b _ hb t ht => ?_⟩
    · cases hb
      have h : ∀ v < 4, (Buf.ofList [0, 0, 0, 1]).get v = some (mixLab v) ∧ mixLab v < 2 := by decide
      exact h v hv
    · cases hb
      have h : ∀ t < 2, (Buf.ofList [1, 1]).get t = some 1 := by decide
      exact h t ht
  limits := fun _ => ⟨by rcases hS with rfl | rfl <;> (show 4 * _ ≤ 2 ^ 64 - 1; decide), fun _ => ⟨⟨0, by show 0 < 2; decide, Nat.one_pos⟩, by show 2 < 2 ^ 32; decide⟩⟩
  unchecked := fun _ => rfl

theorem mix_accepts {S : Nat} (hS : S = 2 ∨ S = 3) : Accepts sortedCfg (builtinSpi (some mixData)).valid (builtinSpi (some mixData)).numPoints (mixOpts S) mixObj.cl (List.range 4) where
  initialized := by decide
  valid := by decide
  points := by decide
  options := ⟨rfl, by show 2 ≤ S; omega, by show S ≤ 4; omega, Or.inr ⟨by show 2 ≤ 2; decide, by show 2 ≤ 65535; decide, nofun, by show 4 ≤ 4; decide, nofun⟩, nofun, Or.inl ⟨rfl, rfl⟩, nofun, Or.inl rfl,
    ⟨Or.inl rfl, nofun, nofun⟩, ⟨nofun, nofun⟩, ⟨nofun, nofun⟩, nofun⟩
  empty := rfl

def mix_builtin : SpiOk (builtinSpi (some mixData)) 4 (samePoints mixData) mixData.dist False :=
  builtinSpi_with mixData mixData_complete fun set k R q _ _ _ _ _ => by
    unfold samePoints
    cases nnAnswer (mixData.sqd q) set k R with
    | none => exact .none
    | some a => exact .some (List.Perm.refl _)

/-- C70 fails in general: in a build with `SCC_STABLE_NNG` two searches that report the same points in opposite orders give different clusters. Both searches find the same nearest points for each query,
and the call is accepted with both. -/
theorem C70_fails : sortedCfg.stableNng = true ∧ CallOk sortedCfg (mixOpts 3) mixObj (List.range 4) mixLab (fun _ => 1) (sampleWorld [5]) ∧
    Accepts sortedCfg (builtinSpi (some mixData)).valid (builtinSpi (some mixData)).numPoints (mixOpts 3) mixObj.cl (List.range 4) ∧
    Nonempty (SpiOk (builtinSpi (some mixData)) 4 (samePoints mixData) mixData.dist False) ∧
    Nonempty (SpiOk (annTidySpi true backLib (some mixData)) 4 (samePoints mixData) mixData.dist (2 ^ 31 - 1 < 4)) ∧
    Determined sortedCfg (Strict 4 (samePoints mixData)) ∧
    mixResult sortedCfg (builtinSpi (some mixData)) 3 = some (.ok, 1, [0, 0, -2147483648, 0]) ∧
    mixResult sortedCfg (annTidySpi true backLib (some mixData)) 3 = some (.ok, 1, [0, -2147483648, 0, 0]) :=
  ⟨rfl, mix_call (Or.inr rfl), mix_accepts (Or.inr rfl), ⟨mix_builtin⟩, ⟨annTidySpi_ok (backLib_ok mixData) mixData_complete true⟩, samePoints_determined rfl 4 mixData, by decide +kernel, by decide +kernel⟩

theorem mix_self : ∀ v ∈ List.range 4, ∀ a, Strict 4 (samePoints mixData) (typeGroup 4 mixLab (mixLab v)) 1 none v (some a) → v ∈ a := by
  rintro q hq a ⟨h, -⟩
  have key : ∀ q ∈ List.range 4, ∀ b ∈ nnAnswer (mixData.sqd q) (typeGroup 4 mixLab (mixLab q)) 1 none, q ∈ b := by decide
  unfold samePoints at h
  cases hb : nnAnswer (mixData.sqd q) (typeGroup 4 mixLab (mixLab q)) 1 none with
  | none => rw [hb] at h; cases h
  | some b =>
    rw [hb] at h
    cases h with
    | some h => exact h.mem_iff.2 (key q hq b hb)

/-- With the size constraint 2, the sum of the type constraints, the two searches give the same clusters. -/
example (direct : Bool) : SameClusters 4 (scClustering sortedCfg (builtinSpi (some mixData)) (mixOpts 2) (some mixObj) (sampleWorld [5]))
    (scClustering sortedCfg (annTidySpi direct backLib (some mixData)) (mixOpts 2) (some mixObj) (sampleWorld [5])) :=
  C70_full_types_partial (ob := mixObj) (ob' := mixObj) (m := .lexical) rfl rfl mix_builtin (annTidySpi_ok (backLib_ok mixData) mixData_complete direct) (fun h => h)
    (by show ¬ 2 ^ 31 - 1 < 4; decide) (mix_call (Or.inl rfl)) (mix_call (Or.inl rfl)) rfl (mix_accepts (Or.inl rfl)) (mix_accepts (Or.inl rfl)) (fun _ _ => rfl) (fun _ _ => rfl)
    (by simp [TooBig, SeedMethod.IsExclusion]; show 4 * 2 ≤ 2 ^ 32 - 1 ∧ 4 ≤ 2 ^ 31 - 1; decide) (by show 2 ≤ 2; decide) rfl (samePoints_determined rfl 4 mixData) (fun v hv _ => mix_self v hv)
    (by rintro (h | h) <;> cases h)

/-- The search of the built-in functions determines its answers. -/
theorem builtin_oneAnswer (n : Nat) (ds : DataSet F) : OneAnswer (Strict n fun set k radius q a => a = nnAnswer (ds.sqd q) set k radius) := by
  rintro set k R q a a' ⟨h, -⟩ ⟨h', -⟩
  rw [h, h']

/-- With the size constraint 3, a search library that reports the points in the order of the built-in search gives the clusters of the built-in search. -/
example (direct : Bool) : SameClusters 4 (scClustering sortedCfg (builtinSpi (some mixData)) (mixOpts 3) (some mixObj) (sampleWorld [5]))
    (scClustering sortedCfg (annTidySpi direct scanLib (some mixData)) (mixOpts 3) (some mixObj) (sampleWorld [5])) :=
  C70_same_order_partial (ob := mixObj) (ob' := mixObj) (m := .lexical) rfl (builtinSpi_ok mixData mixData_complete)
    (annTidySpi_ok (scanLib_ok mixData (A := fun set k radius q a => a = nnAnswer (mixData.sqd q) set k radius) fun _ _ _ _ _ _ _ _ _ => rfl) mixData_complete direct) (fun h => h)
    (by show ¬ 2 ^ 31 - 1 < 4; decide) (mix_call (Or.inr rfl)) (mix_call (Or.inr rfl)) rfl (mix_accepts (Or.inr rfl)) (mix_accepts (Or.inr rfl)) (fun _ _ => rfl) (fun _ _ => rfl)
    (by simp [TooBig, SeedMethod.IsExclusion]; show 4 * 3 ≤ 2 ^ 32 - 1 ∧ 4 ≤ 2 ^ 31 - 1; decide) (fun _ => by show 2 ≤ 3; decide) (builtin_oneAnswer 4 mixData) (by rintro (h | h) <;> cases h)

/-! ### C71 -/

/-- C71. Two calls whose options differ only in the types: `π` gives new names to the types with constraints, and the types without constraints are arbitrary. When the search determines its answers
with their order, the calls return the same code and the same clusters in builds with `SCC_STABLE_NNG`, and in all builds when the new names have the order of the old ones. -/
theorem C71_type_names {cfg : Cfg} {spi spi' : Spi F} {A : Criterion F} {dist : Nat → Nat → F} {refuse refuse' : Prop} {o o' : Options F} {ob ob' : ClObj} (hn : ob'.cl.n = ob.cl.n)
    (hs : SpiOk spi ob.cl.n A dist refuse) (hs' : SpiOk spi' ob.cl.n A dist refuse') (hr : ¬ refuse) (hr' : ¬ refuse') {P : List Nat} {lab c lab' c' : Nat → Nat} {w w' : World}
    (ho : o' = { o with numTypes := o'.numTypes, typeConstraints := o'.typeConstraints, lenTypeLabels := o'.lenTypeLabels, typeLabels := o'.typeLabels })
    (ht : 2 ≤ o.numTypes) (ht' : 2 ≤ o'.numTypes) {π : Nat → Nat} (hπ : Renamed ob.cl.n o.numTypes o'.numTypes lab c lab' c' π)
    (hst : cfg.stableNng = true ∨ ∀ t s, t < s → s < o.numTypes → 0 < c t → 0 < c s → π t < π s)
    (hc : CallOk cfg o ob P lab c w) (hc' : CallOk cfg o' ob' P lab' c' w') {m : SeedMethod} (hm : o.seedMethod = .method m)
    (hacc : Accepts cfg spi.valid spi.numPoints o ob.cl P) (hacc' : Accepts cfg spi'.valid spi'.numPoints o' ob'.cl P) (hw : w.NoFail) (hw' : w'.NoFail)
    (hbig : ¬ TooBig cfg ob.cl.n o.sizeConstraint m) (hsum : sumTo c o.numTypes ≤ o.sizeConstraint) (hone : OneAnswer (Strict ob.cl.n A))
    (hstable : m = .inwardsUpdating ∨ m = .exclusionUpdating → cfg.stableSeeds = true) :
    SameClusters ob.cl.n (scClustering cfg spi o (some ob) w) (scClustering cfg spi' o' (some ob') w') := by
  have hS : o'.sizeConstraint = o.sizeConstraint := by rw [ho]
  have hR : seedLimit o' = seedLimit o := by rw [ho]; rfl
  rw [eq_false hr] at hs
  rw [eq_false hr', ← hn] at hs'
  have h1 := run_undisturbed hs.strict hc hm hacc hw hbig fun _ => hsum
  have h2 := run_undisturbed hs'.strict hc' (m := m) (by rw [ho]; exact hm) hacc' hw' (by rw [hn, hS]; exact hbig) fun _ => by rw [hS, hπ.sum]; exact hsum
  rw [hn] at h2
  have hdet := hone.determined cfg
  obtain ⟨π', hπ'⟩ := hπ.symm
  refine Undisturbed.same hdet ⟨by omega, by rw [ho], by rw [ho], hR, by rw [ho]; exact ⟨rfl, rfl⟩, by rw [ho]; exact ⟨rfl, rfl⟩⟩ hc.arrays.range hacc.options.size_two
    hacc'.options.size_two (fun g1 g2 => NngStored.renamed hone ht ht' hS hR hπ hst g1 g2) (fun h hne => h.not_noSeeds hdet ht ht' hS hR hπ hne)
    (fun h hne => h.not_noSeeds hdet ht' ht hS.symm hR.symm hπ' hne) hstable h1 h2

/-- Seven points on a line. -/
def nameData : DataSet Int := mkData 1 [0, 1, 2, 8, 9, 10, 5]

/-- Clusters of at least three points that contain `c` points of each type; the types of the points are `l`. -/
def nameOpts (c l : List Nat) : Options Int :=
  { (defaultOptions : Options Int) with sizeConstraint := 3, numTypes := c.length, typeConstraints := some (Buf.ofList c), lenTypeLabels := 7, typeLabels := some (Buf.ofList l), primaryMethod := .anyNeighbor, primaryRadius := .noRadius }

/-- The error code, the number of clusters and the labels. -/
def nameResult (cfg : Cfg) (o : Options Int) : Option (ErrorCode × Nat × List Int) :=
  (scClustering cfg (builtinSpi (some nameData)) o (some gapObj) (sampleWorld [5])).bind fun r => r.1.2.bind fun ob => ob.cl.label.bind fun b => (b.buf.read 7).map fun l =>
    (r.1.1, ob.cl.numClusters, l)

/-- In the default build the names matter: exchanging the names 0 and 1 changes the cluster of the point 6. In the build with `SCC_STABLE_NNG` it does not. -/
theorem C71_default_depends_on_names :
    nameResult sampleCfg (nameOpts [1, 1, 1] [2, 1, 0, 1, 0, 2, 2]) = some (.ok, 2, [0, 0, 0, 1, 1, 1, 0]) ∧
    nameResult sampleCfg (nameOpts [1, 1, 1] [2, 0, 1, 0, 1, 2, 2]) = some (.ok, 2, [0, 0, 0, 1, 1, 1, 1]) ∧
    nameResult sortedCfg (nameOpts [1, 1, 1] [2, 1, 0, 1, 0, 2, 2]) = some (.ok, 2, [0, 0, 0, 1, 1, 1, 0]) ∧
    nameResult sortedCfg (nameOpts [1, 1, 1] [2, 0, 1, 0, 1, 2, 2]) = some (.ok, 2, [0, 0, 0, 1, 1, 1, 0]) := by
  decide +kernel

theorem nameData_complete : nameData.Complete := mkData_complete (by decide)

theorem name_call {cfg : Cfg} (hcfg : cfg = sampleCfg ∨ cfg = sortedCfg) {c l : List Nat} (h1 : 2 ≤ c.length) (h2 : 0 < c.getD 0 0) (h3 : c.sum < 2 ^ 32) (h4 : l.length = 7)
    (h5 : ∀ v < 7, l.getD v 0 < c.length) (h6 : ((List.range c.length).map fun t => c.getD t 0) = c) :
    CallOk cfg (nameOpts c l) gapObj (List.range 7) (fun v => l.getD v 0) (fun t => c.getD t 0) (sampleWorld [5]) where
  config := by rcases hcfg with rfl | rfl <;> exact ⟨by decide, by decide, by decide, by decide, by decide⟩
  live := by simp [gapObj, sampleWorld, ptrOwn, ptrIds]
  room := by intro lb h; cases h
  arrays := by
    refine ⟨fun _ => rfl, nofun, fun x hx => List.mem_range.1 hx, fun b _ hb v hv => ?_, fun b _ hb t ht => ?_⟩
    · cases hb
      have hv7 : v < 7 := hv
      refine ⟨?_, h5 v hv⟩
      simp [Buf.get, Buf.ofList, List.getD_eq_getElem?_getD, List.getElem?_eq_getElem (show v < l.length by omega)]
      omega
    · cases hb
      have ht' : t < c.length := ht
      simp [Buf.get, Buf.ofList, List.getD_eq_getElem?_getD, List.getElem?_eq_getElem ht']
      exact ht'
  limits := fun _ => ⟨by rcases hcfg with rfl | rfl <;> (show 7 * 3 ≤ 2 ^ 64 - 1; decide), fun _ => ⟨⟨0, by show 0 < c.length; omega, h2⟩, by
    show ((List.range c.length).map fun t => c.getD t 0).sum < 2 ^ 32
    rw [h6]; exact h3⟩⟩
  unchecked := fun _ => rfl

theorem name_accepts {cfg : Cfg} (hcfg : cfg = sampleCfg ∨ cfg = sortedCfg) {c l : List Nat} (h1 : 2 ≤ c.length) (h2 : c.length ≤ 65535) :
    Accepts cfg (builtinSpi (some nameData)).valid (builtinSpi (some nameData)).numPoints (nameOpts c l) gapObj.cl (List.range 7) where
  initialized := by rcases hcfg with rfl | rfl <;> decide
  valid := by decide
  points := by decide
  options := ⟨rfl, by show 2 ≤ 3; decide, by show 3 ≤ 7; decide, Or.inr ⟨h1, h2, nofun, by show 7 ≤ 7; decide, nofun⟩, nofun, Or.inl ⟨rfl, rfl⟩, nofun, Or.inl rfl,
    ⟨Or.inl rfl, nofun, nofun⟩, ⟨nofun, nofun⟩, ⟨nofun, nofun⟩, nofun⟩
  empty := rfl

/-- In the build with `SCC_STABLE_NNG`: the names 0 and 1 are exchanged. -/
example : SameClusters 7 (scClustering sortedCfg (builtinSpi (some nameData)) (nameOpts [1, 1, 1] [2, 1, 0, 1, 0, 2, 2]) (some gapObj) (sampleWorld [5]))
    (scClustering sortedCfg (builtinSpi (some nameData)) (nameOpts [1, 1, 1] [2, 0, 1, 0, 1, 2, 2]) (some gapObj) (sampleWorld [5])) := by
  refine C71_type_names (ob := gapObj) (ob' := gapObj) (m := .lexical) rfl (builtinSpi_ok nameData nameData_complete) (builtinSpi_ok nameData nameData_complete) (fun h => h) (fun h => h) rfl
    (by show 2 ≤ 3; decide) (by show 2 ≤ 3; decide) (π := fun t => if t = 0 then 1 else if t = 1 then 0 else t) ?_ (Or.inl rfl)
    (name_call (Or.inr rfl) (by decide) (by decide) (by decide) (by decide) (by decide) (by decide)) (name_call (Or.inr rfl) (by decide) (by decide) (by decide) (by decide) (by decide) (by decide)) rfl
    (name_accepts (Or.inr rfl) (by decide) (by decide)) (name_accepts (Or.inr rfl) (by decide) (by decide)) (fun _ _ => rfl) (fun _ _ => rfl) (gap_small (Or.inr rfl)) (by decide)
    (builtin_oneAnswer 7 nameData) (by rintro (h | h) <;> cases h)
  have h : ∀ t < 3, ∀ s < 3, ((if t = 0 then 1 else if t = 1 then 0 else t) = if s = 0 then 1 else if s = 1 then 0 else s) → t = s := by decide
  exact ⟨by decide, by decide, by decide, fun t s h1 h2 _ _ he => h t h1 s h2 he, by decide⟩

/-- In the default build: the points that are not of type 0 get types of their own, which have no constraints. -/
example : SameClusters 7 (scClustering sampleCfg (builtinSpi (some nameData)) (nameOpts [2, 0] [0, 1, 0, 1, 0, 0, 1]) (some gapObj) (sampleWorld [5]))
    (scClustering sampleCfg (builtinSpi (some nameData)) (nameOpts [2, 0, 0, 0] [0, 1, 0, 2, 0, 0, 3]) (some gapObj) (sampleWorld [5])) := by
  refine C71_type_names (ob := gapObj) (ob' := gapObj) (m := .lexical) rfl (builtinSpi_ok nameData nameData_complete) (builtinSpi_ok nameData nameData_complete) (fun h => h) (fun h => h) rfl
    (by show 2 ≤ 2; decide) (by show 2 ≤ 4; decide) (π := id) ?_ (Or.inr fun t s h _ _ _ => h)
    (name_call (Or.inl rfl) (by decide) (by decide) (by decide) (by decide) (by decide) (by decide)) (name_call (Or.inl rfl) (by decide) (by decide) (by decide) (by decide) (by decide) (by decide)) rfl
    (name_accepts (Or.inl rfl) (by decide) (by decide)) (name_accepts (Or.inl rfl) (by decide) (by decide)) (fun _ _ => rfl) (fun _ _ => rfl) (gap_small (Or.inl rfl)) (by decide)
    (builtin_oneAnswer 7 nameData) (by rintro (h | h) <;> cases h)
  exact ⟨by decide, by decide, by decide, fun _ _ _ _ _ _ he => he, by decide⟩

end Scc
