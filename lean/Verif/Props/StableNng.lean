/-
Property C63: what the build flag `SCC_STABLE_NNG` gives (src/nng_core.c:177-179, 348-350, 1044-1064 and src/nng_batch_clustering.c:175-184, 258-262).

`cfg.stableNng` says whether the flag is defined. `Determined cfg (Strict n A)` says that all answers to a query that satisfy the criterion `A` consist of the same points, in any
order when the flag is defined and in the same order otherwise.
-/
import Verif.Proofs.RunUnique
import Verif.Props.Ann
import Verif.Props.Batches
import Verif.Props.Stable

set_option linter.unusedVariables false

namespace Scc

variable {F : Type} [FloatOps F]

/-- The answers of a back end are answers to queries that the library makes. -/
def SpiOk.strict {spi : Spi F} {n : Nat} {A : Criterion F} {dist : Nat → Nat → F} {mayRefuse : Prop} (hs : SpiOk spi n A dist mayRefuse) : SpiOk spi n (Strict n A) dist mayRefuse where
  isNN o set own ids := hs.isNN o set own ids ∧ set.Nodup ∧ ∀ x ∈ set, x < n
  nnInit len arr L w h1 h2 h3 h4 h5 h6 := (hs.nnInit len arr L w h1 h2 h3 h4 h5 h6).mono fun r w' h => by
    refine ⟨h.1, h.2.1, ?_⟩
    cases r with
    | none => exact h.2.2
    | some o =>
      obtain ⟨own, k1, k2⟩ := h.2.2
      exact ⟨own, ⟨k1, h4, h5⟩, k2⟩
  nnSearch o set own ids lenQ queries Q k rs radius oq nn w h1 h2 h3 := (hs.nnSearch o set own ids lenQ queries Q k rs radius oq nn w h1.1 h2 h3).mono fun r w' h => by
    refine ⟨h.1, h.2.1, h.2.2.1, ?_⟩
    cases r with
    | none => exact h.2.2.2
    | some out =>
      obtain ⟨k1, k2, res, k3, k4, k5⟩ := h.2.2.2
      refine ⟨k1, k2, res, k3, fun p hp => ⟨⟨(k4 p hp).1, (k4 p hp).2, h1.2.1, h1.2.2, h3.range p.1 ?_⟩, (k4 p hp).2⟩, k5⟩
      rw [← k3]
      exact List.mem_map_of_mem hp
  nnClose o set own ids w L h1 h2 := hs.nnClose o set own ids w L h1.1 h2
  distRows := hs.distRows
  numPoints := hs.numPoints

/-- Two calls return the same error code and, if it is "ok", the same clusters. -/
def SameClusters (n : Nat) (r r' : Option ((ErrorCode × Option ClObj) × World)) : Prop :=
  ∃ e p w p' w', r = some ((e, p), w) ∧ r' = some ((e, p'), w') ∧
    (e = .ok → ∃ ob ob' b b', p = some ob ∧ p' = some ob' ∧ ob.cl.label = some b ∧ ob'.cl.label = some b' ∧ ob.cl.numClusters = ob'.cl.numClusters ∧
      ∀ v, v < n → ∃ x, b.buf.get v = some x ∧ b'.buf.get v = some x)

/-- The two ways in which a call ends when nothing goes wrong with memory, the sizes or the search. -/
theorem run_cases {cfg : Cfg} {spi : Spi F} {A : Criterion F} {dist : Nat → Nat → F} {o : Options F} {ob : ClObj}
    (hs : SpiOk spi ob.cl.n A dist False) {P : List Nat} {lab c : Nat → Nat} {w : World} (hc : CallOk cfg o ob P lab c w) {m : SeedMethod} (hm : o.seedMethod = .method m)
    (hacc : Accepts cfg spi.valid spi.numPoints o ob.cl P) (hw : w.NoFail) (hbig : ¬ TooBig cfg ob.cl.n o.sizeConstraint m) (ht : o.numTypes < 2) :
    (∃ cl b w' rows order L2 L3 L, scClustering cfg spi o (some ob) w = some ((.ok, some ⟨ob.id, cl⟩), w') ∧ cl.label = some b ∧
      RunData cfg A dist ob.cl.n o m P lab c False rows order L2 L3 L cl.numClusters b.buf) ∨
    ∃ p w', scClustering cfg spi o (some ob) w = some ((.noSolution, p), w') ∧ (NoSeeds A ob.cl.n o P lab c ∨
      ∃ rows order, NngStored cfg A ob.cl.n o P lab c rows ∧ order.Perm (List.range ob.cl.n) ∧ BuildOrder cfg m rows ob.cl.n order ∧ BadEstimate dist o rows (greedySeeds rows order)) := by
  obtain ⟨⟨e, p⟩, w', h1, h2⟩ := scClustering_spec hs hc hm
  rcases h2 with h2 | ⟨-, -, M, cl', hlive, hp, h2⟩
  · exact absurd hacc fun h => h2.cause.not_accepts h
  · have hlost : (¬ w.NoFail ∨ False) = False := by simp [hw]
    dsimp only at hp
    subst hp
    cases h2 with
    | done _ _ rows order L2 L3 L id l data lab' live =>
      rw [hlost] at data
      exact Or.inl ⟨cl', ⟨id, l⟩, w', rows, order, L2, L3, L, h1, by rw [lab'.eq], data⟩
    | early _ _ _ leak cause unt err live leaked =>
      rcases cause with (⟨-, h⟩ | ⟨-, h⟩ | ⟨-, h⟩) | ⟨rfl, h⟩ | ⟨-, h3, h4⟩
      · exact absurd h hbig
      · exact absurd hw h
      · rw [hlost] at h; exact h.elim
      · exact Or.inr ⟨_, _, h1, h⟩
      · omega
    | late _ _ _ L id l cause err search labels lt pos cap lab' live =>
      exfalso
      rcases cause with ⟨-, h⟩ | ⟨-, h⟩ | ⟨-, h⟩
      · exact h
      · exact h hw
      · rw [hlost] at h; exact h

theorem NoSeeds.not_done {cfg : Cfg} {A : Criterion F} (hdet : Determined cfg A) {dist : Nat → Nat → F} {n : Nat} {o : Options F} {m : SeedMethod} {P : List Nat} {lab c : Nat → Nat}
    {rows : Nat → List Nat} {order : List Nat} {L2 L3 L : Nat → Option Nat} {k : Nat} {l : Buf Int} (hS : 2 ≤ o.sizeConstraint) (ht : o.numTypes < 2)
    {lost : Prop} (h : RunData cfg A dist n o m P lab c lost rows order L2 L3 L k l) : ¬ NoSeeds A n o P lab c := by
  rintro (⟨-, -, hno⟩ | ⟨h2, -⟩)
  · obtain ⟨s, -, hs2, hs3⟩ := h.seed_of_lt hS (show 0 < k by rw [h.count]; exact List.length_pos_iff.2 h.seeds_ne)
    obtain ⟨r, ⟨-, ans, h1, h2⟩ | ⟨h1, -⟩, he⟩ := h.nng
    swap
    · omega
    rw [he, Ne, stored_eq_nil, h2 s hs2] at hs3
    by_cases hsP : s ∈ P
    · have h3 := hdet _ _ _ _ _ _ (h1.crit s hsP) (hno s hsP)
      cases ha : ans s with
      | none => simp [ansRows, ha, nbrs] at hs3
      | some a => rw [ha] at h3; cases h3
    · simp [ansRows, h1.none_of s hsP, nbrs] at hs3
  · omega

/-- C63. When the points in the answers of the search are determined, and ties between seeds are broken by index (for the methods with updating: in builds with `SCC_STABLE_FINDSEED`),
the result of a call without types is determined: it does not depend on the search back end, on the order in which the search reports the points (in builds with `SCC_STABLE_NNG`), on the
clustering object or on the process. -/
theorem C63_same_clusters {cfg : Cfg} {spi spi' : Spi F} {A : Criterion F} {dist : Nat → Nat → F} {refuse refuse' : Prop} {o : Options F} {ob ob' : ClObj} (hn : ob'.cl.n = ob.cl.n)
    (hs : SpiOk spi ob.cl.n A dist refuse) (hs' : SpiOk spi' ob.cl.n A dist refuse') (hr : ¬ refuse) (hr' : ¬ refuse') {P : List Nat} {lab c : Nat → Nat} {w w' : World}
    (hc : CallOk cfg o ob P lab c w) (hc' : CallOk cfg o ob' P lab c w') {m : SeedMethod} (hm : o.seedMethod = .method m)
    (hacc : Accepts cfg spi.valid spi.numPoints o ob.cl P) (hacc' : Accepts cfg spi'.valid spi'.numPoints o ob'.cl P) (hw : w.NoFail) (hw' : w'.NoFail)
    (hbig : ¬ TooBig cfg ob.cl.n o.sizeConstraint m) (ht : o.numTypes < 2) (hdet : Determined cfg (Strict ob.cl.n A))
    (hself : cfg.stableNng = true → ∀ q ∈ P, ∀ a, Strict ob.cl.n A (List.range ob.cl.n) o.sizeConstraint (seedLimit o) q (some a) → q ∈ a)
    (hstable : m = .inwardsUpdating ∨ m = .exclusionUpdating → cfg.stableSeeds = true) :
    SameClusters ob.cl.n (scClustering cfg spi o (some ob) w) (scClustering cfg spi' o (some ob') w') := by
  have hS := hacc.options.size_two
  have hP := hc.arrays.range
  rw [eq_false hr] at hs
  rw [eq_false hr', ← hn] at hs'
  have hs1 := hs.strict
  have hs2 := hs'.strict
  have key : ∀ {rows rows' : Nat → List Nat} {order order' : List Nat}, NngStored cfg (Strict ob.cl.n A) ob.cl.n o P lab c rows → NngStored cfg (Strict ob.cl.n A) ob.cl.n o P lab c rows' →
      order.Perm (List.range ob.cl.n) → order'.Perm (List.range ob.cl.n) → BuildOrder cfg m rows ob.cl.n order → BuildOrder cfg m rows' ob.cl.n order' →
      BadEstimate dist o rows (greedySeeds rows order) → BadEstimate dist o rows' (greedySeeds rows' order') := by
    intro rows rows' order order' g1 g2 g3 g4 g5 g6 g7
    have hrows := NngStored.unique hdet ht hself g1 g2
    have hseeds := seeds_unique hstable hrows g3 g4 g5 g6
    have hlt : ∀ s ∈ greedySeeds rows order, s < ob.cl.n := fun s hs => List.mem_range.1 (g3.mem_iff.1 ((greedySeeds_sublist _ _).subset hs))
    refine ⟨g7.1, ?_⟩
    rw [← hseeds, ← seedEstimate_congr fun s hs => hrows s (hlt s hs)]
    exact g7.2
  rcases run_cases hs1 hc hm hacc hw hbig ht with ⟨cl, b, v, rows, order, L2, L3, L, h1, h2, h3⟩ | ⟨p, v, h1, h2⟩ <;>
    rcases run_cases hs2 hc' hm hacc' hw' (by rw [hn]; exact hbig) ht with ⟨cl', b', v', rows', order', M2, M3, M, h1', h2', h3'⟩ | ⟨p', v', h1', h2'⟩
  · rw [hn] at h3'
    obtain ⟨k1, k2⟩ := RunData.unique hdet hP ht hself hstable h3 h3'
    refine ⟨_, _, _, _, _, h1, h1', fun _ => ⟨_, _, b, b', rfl, rfl, h2, h2', k1, fun v hv => ⟨_, h3.labels v hv, ?_⟩⟩⟩
    rw [← k2 v hv, h3.labels v hv]
  · exfalso
    rw [hn] at h2'
    rcases h2' with h | ⟨rows', order', g1, g2, g3, g4⟩
    · exact NoSeeds.not_done hdet hS ht h3 h
    · exact h3.estimate (key g1 h3.nng g2 h3.perm g3 h3.method g4)
  · exfalso
    rw [hn] at h3'
    rcases h2 with h | ⟨rows, order, g1, g2, g3, g4⟩
    · exact NoSeeds.not_done hdet hS ht h3' h
    · exact h3'.estimate (key g1 h3'.nng g2 h3'.perm g3 h3'.method g4)
  · exact ⟨_, _, _, _, _, h1, h1', nofun⟩

/-- C63 for batches. -/
theorem C63_same_clusters_batches {cfg : Cfg} {spi spi' : Spi F} {A : Criterion F} {dist : Nat → Nat → F} {refuse refuse' : Prop} {o : Options F} {ob ob' : ClObj} (hn : ob'.cl.n = ob.cl.n)
    (hs : SpiOk spi ob.cl.n A dist refuse) (hs' : SpiOk spi' ob.cl.n A dist refuse') (hr : ¬ refuse) (hr' : ¬ refuse') {P : List Nat} {lab c : Nat → Nat} {w w' : World}
    (hc : CallOk cfg o ob P lab c w) (hc' : CallOk cfg o ob' P lab c w') (hm : o.seedMethod = .batches) (hfit : BatchFits o ob.cl.n)
    (hacc : Accepts cfg spi.valid spi.numPoints o ob.cl P) (hacc' : Accepts cfg spi'.valid spi'.numPoints o ob'.cl P) (hum : o.primaryMethod = .ignore ∨ o.primaryMethod = .anyNeighbor)
    (hw : w.NoFail) (hw' : w'.NoFail) (hdet : Determined cfg (Strict ob.cl.n A)) :
    SameClusters ob.cl.n (scClustering cfg spi o (some ob) w) (scClustering cfg spi' o (some ob') w') := by
  classical
  rw [eq_false hr] at hs
  rw [eq_false hr', ← hn] at hs'
  let B : Nat → Option (List Nat) → Prop := Strict ob.cl.n A (List.range ob.cl.n) o.sizeConstraint (seedLimit o)
  obtain ⟨g, hg⟩ : ∃ g : Nat → Option (List Nat), ∀ q a, B q a → a.map (stored cfg) = g q := by
    refine ⟨fun q => if h : ∃ a, B q a then h.choose.map (stored cfg) else none, fun q a ha => ?_⟩
    have hex : ∃ a, B q a := ⟨a, ha⟩
    dsimp only
    rw [dif_pos hex]
    exact hdet.stored_eq ha hex.choose_spec
  obtain ⟨⟨e, p⟩, v, h1, h2⟩ := scBatches_determined hs.strict hc hm hfit hacc hum hw hg
  obtain ⟨⟨e', p'⟩, v', h1', h2'⟩ := scBatches_determined hs'.strict hc' hm (hn ▸ hfit) hacc' hum hw' (by rw [hn]; exact hg)
  rw [hn] at h2'
  generalize seqRun (decide (o.primaryMethod = .ignore)) (P.map fun q => (q, g q)) = st at h2 h2'
  cases h2 with
  | ok cl b pos cap count label points labels =>
    cases h2' with
    | ok cl' b' pos' cap' count' label' points' labels' =>
      exact ⟨_, _, _, _, _, h1, h1', fun _ => ⟨_, _, b, b', rfl, rfl, label, label', by rw [count, count'], fun v hv => ⟨_, labels v hv, labels' v hv⟩⟩⟩
    | tooLarge p big => omega
    | noSeeds cl b none count label labels => rw [none] at pos; simp at pos
  | tooLarge p big =>
    cases h2' with
    | ok cl' b' pos' cap' count' label' points' labels' => omega
    | tooLarge p big => exact ⟨_, _, _, _, _, h1, h1', nofun⟩
    | noSeeds cl b none count label labels => rw [none] at big; simp at big
  | noSeeds cl b none count label labels =>
    cases h2' with
    | ok cl' b' pos' cap' count' label' points' labels' => rw [none] at pos'; simp at pos'
    | tooLarge p big => rw [none] at big; simp at big
    | noSeeds cl b none count label labels => exact ⟨_, _, _, _, _, h1, h1', nofun⟩

/-- When no two points are equally far from a third one, the nearest points are determined. -/
theorem nearest_determined {cfg : Cfg} {n : Nat} {le : Nat → Nat → Nat → Prop} {within : Nat → Nat → F → Prop} (hties : ∀ q x y, q < n → x < n → y < n → le q x y → le q y x → x = y) :
    Determined cfg (Strict n (Nearest le within)) := by
  have hnone : ∀ {set : List Nat} {k q : Nat} {R : Option F} {l : List Nat}, Strict n (Nearest le within) set k R q (some l) → ¬ Strict n (Nearest le within) set k R q none := by
    rintro set k q R l ⟨h1, h2, -⟩ ⟨⟨r, hr, hfew⟩, -⟩
    obtain ⟨g1, g2, g3⟩ := h2.2 l rfl
    have := hfew l g2 g3 (h1.1 r hr)
    omega
  intro set k R q a a' ha ha'
  cases a with
  | none =>
    cases a' with
    | none => exact .none
    | some l => exact absurd ha (hnone ha')
  | some l =>
    cases a' with
    | none => exact absurd ha' (hnone ha)
    | some l' =>
      obtain ⟨h1, h2, h3, h4, h5⟩ := ha
      obtain ⟨h1', h2', -⟩ := ha'
      obtain ⟨g1, g2, g3⟩ := h2.2 l rfl
      obtain ⟨g1', g2', g3'⟩ := h2'.2 l' rfl
      have hsub : l ⊆ l' := by
        intro x hx
        by_contra hx'
        -- then some point of `l'` is not in `l`
        have hex : ∃ y ∈ l', y ∉ l := by
          by_contra hall
          push Not at hall
          have hnd : (x :: l').Nodup := List.nodup_cons.2 ⟨hx', g2'⟩
          have := (List.subperm_of_subset hnd (List.cons_subset.2 ⟨hx, hall⟩)).length_le
          simp at this
          omega
        obtain ⟨y, hy, hyl⟩ := hex
        have := hties q x y h5 (h4 x (g3 hx)) (h4 y (g3' hy)) (h1.2.2 x hx y (g3' hy) hyl) (h1'.2.2 y hy x (g3 hx) hx')
        exact hx' (this ▸ hy)
      have hperm : l.Perm l' := (List.subperm_of_subset g2 hsub).perm_of_length_le (by omega)
      refine .some ?_
      split
      · exact hperm
      · exact hperm.eq_of_pairwise (le := le q) (fun x y hx hy => hties q x y h5 (h4 x (g3 hx)) (h4 y (g3' hy))) h1.2.1 h1'.2.1

/-- C63, for example: on data without ties the ANN back end with exact search and the built-in back end give the same clusters. -/
theorem C63_ann_builtin {cfg : Cfg} (direct : Bool) {lib : AnnLib F} {ds : DataSet F} (laws : FloatLaws F) (hnum : ∀ i j, i < ds.n → j < ds.n → IsNum (ds.sqd i j))
    (hA : AnnOk lib ds (Nearest ds.NoFarther ds.Within)) (hcomp : ds.Complete) (hint : ds.n ≤ intMax)
    (hties : ∀ q x y, q < ds.n → x < ds.n → y < ds.n → ds.NoFarther q x y → ds.NoFarther q y x → x = y) (hzero : ∀ q x, q < ds.n → x < ds.n → ds.NoFarther q q x)
    {o : Options F} {ob : ClObj} (hn : ob.cl.n = ds.n) {w : World} (hord : w.Ordinary) {P : List Nat} {lab c : Nat → Nat} (hc : CallOk cfg o ob P lab c w) {m : SeedMethod}
    (hm : o.seedMethod = .method m) (hacc : Accepts cfg (builtinSpi (some ds)).valid ds.n o ob.cl P) (hw : w.NoFail) (hbig : ¬ TooBig cfg ob.cl.n o.sizeConstraint m) (ht : o.numTypes < 2)
    (hstable : m = .inwardsUpdating ∨ m = .exclusionUpdating → cfg.stableSeeds = true) :
    SameClusters ob.cl.n (scClustering cfg (builtinSpi (some ds)) o (some ob) w) (scClustering cfg (annSpi direct lib (some ds)) o (some ob) w) := by
  have hself : ∀ q ∈ P, ∀ a, Strict ob.cl.n (Nearest ds.NoFarther ds.Within) (List.range ob.cl.n) o.sizeConstraint (seedLimit o) q (some a) → q ∈ a := by
    rintro q hq a ⟨h1, h2, -, -, h5⟩
    by_contra hqa
    obtain ⟨g1, g2, g3⟩ := h2.2 a rfl
    have hpos : 0 < a.length := by have := hacc.options.size_two; omega
    obtain ⟨x, hx⟩ := List.exists_mem_of_length_pos hpos
    have hxn : x < ob.cl.n := List.mem_range.1 (g3 hx)
    have := hties q x q (hn ▸ h5) (hn ▸ hxn) (hn ▸ h5) (h1.2.2 x hx q (List.mem_range.2 h5) hqa) (hzero q x (hn ▸ h5) (hn ▸ hxn))
    exact hqa (this ▸ hx)
  obtain ⟨e, p, v, p', v', h1, h2, h3⟩ := C63_same_clusters (spi := builtinSpi (some ds)) (spi' := annTidySpi direct lib (some ds)) (A := Nearest ds.NoFarther ds.Within) (dist := ds.dist) rfl
    (hn ▸ builtinSpi_nearest laws ds hcomp hnum) (hn ▸ annTidySpi_ok hA hcomp direct) (fun h => h) (Nat.not_lt.2 hint) hc hc hm hacc hacc hw hw hbig ht
    (nearest_determined (by rw [hn]; exact hties)) (fun _ => hself) hstable
  obtain ⟨v'', h4, -⟩ := C58_leaks_harmless hord h2
  exact ⟨e, p, v, p', v'', h1, h4, h3⟩

/-! ### Examples -/

/-- Seven points on a line; no two of them are equally far from a third one. The clusters around the seeds are {0, 1, 2} and {3, 4, 5}, and the point 6 has the neighbours 4 and 2, in this order. -/
def gapData : DataSet Int := mkData 1 [0, 4, 6, 13, 10, 15, 9]

/-- An empty clustering object for seven points. -/
def gapObj : ClObj := ⟨5, clusteringVersion, 7, 0, none, false⟩

/-- Clusters of at least three points. -/
def gapOpts (um : UnassignedMethod) : Options Int := { (defaultOptions : Options Int) with sizeConstraint := 3, primaryMethod := um, primaryRadius := .noRadius }

/-- The configuration of the examples, built with `SCC_STABLE_NNG`. -/
def sortedCfg : Cfg := { sampleCfg with stableNng := true }

/-- The error code, the number of clusters and the labels. -/
def gapResult (cfg : Cfg) (spi : Spi Int) (um : UnassignedMethod) : Option (ErrorCode × Nat × List Int) :=
  (scClustering cfg spi (gapOpts um) (some gapObj) (sampleWorld [5])).bind fun r => r.1.2.bind fun ob => ob.cl.label.bind fun b => (b.buf.read 7).map fun l => (r.1.1, ob.cl.numClusters, l)

/-- A search library that reports the points in the reverse order. -/
def backLib : AnnLib F where
  kSearch ds set q k := (scanLib.kSearch ds set q k).reverse
  frSearch ds set q rsq k := ((scanLib.frSearch ds set q rsq k).1, (scanLib.frSearch ds set q rsq k).2.reverse)

/-- The answers have the points that the built-in search finds, in any order. -/
def samePoints (ds : DataSet F) : Criterion F := fun set k R q a => Option.Rel List.Perm a (nnAnswer (ds.sqd q) set k R)

theorem backLib_ok (ds : DataSet F) : AnnOk backLib ds (samePoints ds) := by
  have h := scanLib_ok ds (A := fun set k R q a => a = nnAnswer (ds.sqd q) set k R) fun _ _ _ _ _ _ _ _ _ => rfl
  have hrefl : ∀ a : Option (List Nat), Option.Rel List.Perm a a := fun a => by cases a <;> constructor; exact List.Perm.refl _
  have hrev : ∀ {set idx l : List Nat}, PointsAt set idx l → PointsAt set idx.reverse l.reverse := fun h => by
    unfold PointsAt at *
    rw [List.map_reverse, List.map_reverse, h]
  refine ⟨fun set q k h1 h2 h3 h4 h5 => ?_, fun set q k r h1 h2 h3 h4 h5 => ?_⟩
  · obtain ⟨l, k1, k2, k3, k4⟩ := h.kSearch set q k h1 h2 h3 h4 h5
    refine ⟨l.reverse, hrev k1, by rw [List.length_reverse]; exact k2, List.nodup_reverse.2 k3, ?_⟩
    unfold samePoints
    rw [← k4]
    exact .some (List.reverse_perm _)
  · obtain ⟨k1, k2⟩ := h.frSearch set q k r h1 h2 h3 h4 h5
    refine ⟨by show (scanLib.frSearch ds set q (FloatOps.mul r r) k).2.reverse.length = k; rw [List.length_reverse]; exact k1, ?_⟩
    show if k ≤ (scanLib.frSearch ds set q (FloatOps.mul r r) k).1 then _ else _
    split
    · rename_i hk
      rw [if_pos hk] at k2
      obtain ⟨l, k3, k4, k5⟩ := k2
      refine ⟨l.reverse, hrev k3, List.nodup_reverse.2 k4, ?_⟩
      unfold samePoints
      rw [← k5]
      exact .some (List.reverse_perm _)
    · rename_i hk
      rw [if_neg hk] at k2
      unfold samePoints
      rw [← k2]
      exact .none

theorem samePoints_determined {cfg : Cfg} (hst : cfg.stableNng = true) (n : Nat) (ds : DataSet F) : Determined cfg (Strict n (samePoints ds)) := by
  rintro set k R q a a' ⟨h, -⟩ ⟨h', -⟩
  unfold samePoints at h h'
  rw [hst]
  generalize nnAnswer (ds.sqd q) set k R = b at h h'
  cases h with
  | none => cases h'; exact .none
  | some h =>
    cases h' with
    | some h' => exact .some (h.trans h'.symm)

theorem gapData_complete : gapData.Complete := mkData_complete (by decide)

def gap_builtin : SpiOk (builtinSpi (some gapData)) 7 (samePoints gapData) gapData.dist False :=
  builtinSpi_with gapData gapData_complete fun set k R q _ _ _ _ _ => by
    unfold samePoints
    cases nnAnswer (gapData.sqd q) set k R with
    | none => exact .none
    | some a => exact .some (List.Perm.refl _)

theorem gap_call {cfg : Cfg} (hcfg : cfg = sampleCfg ∨ cfg = sortedCfg) (um : UnassignedMethod) : CallOk cfg (gapOpts um) gapObj (List.range 7) (fun _ => 0) (fun _ => 0) (sampleWorld [5]) where
  config := by rcases hcfg with rfl | rfl <;> exact ⟨by decide, by decide, by decide, by decide, by decide⟩
  live := by simp [gapObj, sampleWorld, ptrOwn, ptrIds]
  room := by intro lb h; cases h
  arrays := ⟨fun _ => rfl, nofun, fun x hx => List.mem_range.1 hx, nofun, nofun⟩
  limits := fun _ => by rcases hcfg with rfl | rfl <;> exact ⟨by show 7 * 3 ≤ 2 ^ 64 - 1; decide, fun h => absurd h (by show ¬ 2 ≤ 0; decide)⟩
  unchecked := fun _ => rfl

theorem gap_accepts {cfg : Cfg} (hcfg : cfg = sampleCfg ∨ cfg = sortedCfg) {um : UnassignedMethod} (h : um ≠ .unknown) :
    Accepts cfg (builtinSpi (some gapData)).valid (builtinSpi (some gapData)).numPoints (gapOpts um) gapObj.cl (List.range 7) where
  initialized := by rcases hcfg with rfl | rfl <;> decide
  valid := by decide
  points := by decide
  options := ⟨rfl, by show 2 ≤ 3; decide, by show 3 ≤ 7; decide, Or.inl ⟨by show 0 < 2; decide, rfl, rfl, rfl⟩, nofun, Or.inl ⟨rfl, rfl⟩, h, Or.inl rfl, ⟨Or.inl rfl, nofun, nofun⟩, ⟨nofun, nofun⟩,
    ⟨nofun, nofun⟩, nofun⟩
  empty := rfl

theorem gap_small {cfg : Cfg} (hcfg : cfg = sampleCfg ∨ cfg = sortedCfg) : ¬ TooBig cfg 7 3 .lexical := by
  rcases hcfg with rfl | rfl <;> (simp [TooBig, SeedMethod.IsExclusion]; show 7 * 3 ≤ 2 ^ 32 - 1 ∧ 7 ≤ 2 ^ 31 - 1; decide)

theorem gap_self : ∀ q ∈ List.range 7, ∀ a, Strict 7 (samePoints gapData) (List.range 7) 3 none q (some a) → q ∈ a := by
  rintro q hq a ⟨h, -⟩
  have key : ∀ q ∈ List.range 7, ∀ b ∈ nnAnswer (gapData.sqd q) (List.range 7) 3 none, q ∈ b := by decide
  unfold samePoints at h
  cases hb : nnAnswer (gapData.sqd q) (List.range 7) 3 none with
  | none => rw [hb] at h; cases h
  | some b =>
    rw [hb] at h
    cases h with
    | some h => exact h.mem_iff.2 (key q hq b hb)

/-- Two searches that report the points in opposite orders; in the build with `SCC_STABLE_NNG` they give the same clusters. -/
example (direct : Bool) (um : UnassignedMethod) (hum : um ≠ .unknown) :
    SameClusters 7 (scClustering sortedCfg (builtinSpi (some gapData)) (gapOpts um) (some gapObj) (sampleWorld [5]))
      (scClustering sortedCfg (annTidySpi direct backLib (some gapData)) (gapOpts um) (some gapObj) (sampleWorld [5])) :=
  C63_same_clusters (ob := gapObj) (ob' := gapObj) (m := .lexical) rfl gap_builtin (annTidySpi_ok (backLib_ok gapData) gapData_complete direct) (fun h => h)
    (by show ¬ 2 ^ 31 - 1 < 7; decide) (gap_call (Or.inr rfl) um) (gap_call (Or.inr rfl) um) rfl (gap_accepts (Or.inr rfl) hum) (gap_accepts (Or.inr rfl) hum) (fun _ _ => rfl) (fun _ _ => rfl)
    (gap_small (Or.inr rfl)) (by show 0 < 2; decide) (samePoints_determined rfl 7 gapData) (fun _ => gap_self) (by rintro (h | h) <;> cases h)

/-- In the default build these two searches give different clusters. -/
theorem C63_default_depends_on_order :
    gapResult sampleCfg (builtinSpi (some gapData)) .closestAssigned = some (.ok, 2, [0, 0, 0, 1, 1, 1, 1]) ∧
    gapResult sampleCfg (annSpi true backLib (some gapData)) .closestAssigned = some (.ok, 2, [0, 0, 0, 1, 1, 1, 0]) ∧
    gapResult sortedCfg (builtinSpi (some gapData)) .closestAssigned = some (.ok, 2, [0, 0, 0, 1, 1, 1, 0]) ∧
    gapResult sortedCfg (annSpi true backLib (some gapData)) .closestAssigned = some (.ok, 2, [0, 0, 0, 1, 1, 1, 0]) := by
  decide +kernel

/-- On the line, the ANN back end and the built-in back end give the same clusters. -/
example (direct : Bool) (um : UnassignedMethod) (hum : um ≠ .unknown) :
    SameClusters 7 (scClustering sampleCfg (builtinSpi (some gapData)) (gapOpts um) (some gapObj) (sampleWorld [5]))
      (scClustering sampleCfg (annSpi direct scanLib (some gapData)) (gapOpts um) (some gapObj) (sampleWorld [5])) := by
  have h1 : ∀ q < 7, ∀ x < 7, ∀ y < 7, gapData.sqd q x ≤ gapData.sqd q y → gapData.sqd q y ≤ gapData.sqd q x → x = y := by decide +kernel
  have h2 : ∀ q < 7, ∀ x < 7, gapData.sqd q q ≤ gapData.sqd q x := by decide +kernel
  refine C63_ann_builtin (ob := gapObj) (m := .lexical) direct intLaws (fun _ _ _ _ => int_isNum _) (scanLib_ok gapData ?_) gapData_complete (by show 7 ≤ 2 ^ 31 - 1; decide)
    (fun q x y hq hx hy g1 g2 => h1 q hq x hx y hy (by simpa [DataSet.NoFarther, FloatOps.le] using g1) (by simpa [DataSet.NoFarther, FloatOps.le] using g2))
    (fun q x hq hx => by simpa [DataSet.NoFarther, FloatOps.le] using h2 q hq x hx) rfl ⟨by decide, by decide⟩ (gap_call (Or.inl rfl) um) rfl (gap_accepts (Or.inl rfl) hum) (fun _ _ => rfl)
    (gap_small (Or.inl rfl)) (by show 0 < 2; decide) (by rintro (h | h) <;> cases h)
  exact fun set k R q h1 h2 h3 h4 h5 => nnAnswer_criterion intLaws (fun _ _ _ _ => int_isNum _) set k R q h1 h2 h3 h4 h5

/-- C63, which neighbour: in builds with `SCC_STABLE_NNG`, a primary point that no seed captures and that is assigned through the digraph joins the cluster of the neighbour with the smallest index among
the neighbours that were captured. -/
theorem C63_smallest_index {cfg : Cfg} {spi : Spi F} {A : Criterion F} {dist : Nat → Nat → F} {mayRefuse : Prop} {o : Options F} {ob : ClObj}
    (hs : SpiOk spi ob.cl.n A dist mayRefuse) {P : List Nat} {lab c : Nat → Nat} {w : World} (hc : CallOk cfg o ob P lab c w) {m : SeedMethod} (hm : o.seedMethod = .method m)
    (hst : cfg.stableNng = true) (hum : o.primaryMethod = .anyNeighbor ∨ o.numTypes < 2 ∧ o.primaryMethod = .closestAssigned) :
    OnSuccess cfg spi o ob w fun k b => ∃ N seeds, SeedClusters cfg A ob.cl.n o P lab c k b N seeds ∧
      ∀ v ∈ P, (∀ j, ¬ CapturedBy N seeds j v) → ∀ i x, x ∈ N v → CapturedBy N seeds i x → (∀ j y, y ∈ N v → CapturedBy N seeds j y → x ≤ y) → v ∈ members b ob.cl.n i := by
  refine onSuccess_of_run hs hc hm fun rows order L2 L3 L k l hv h => ⟨rows, greedySeeds rows order, h.seedClusters hc.config hv.size_two, fun v hvP hnone i x hx hxi hmin => ?_⟩
  have hvn := hc.arrays.range v hvP
  have hsok := h.seedsOk hv.size_two
  have hlab : seedLab rows (greedySeeds rows order) v = none := by
    cases hl : seedLab rows (greedySeeds rows order) v with
    | none => rfl
    | some j => exact absurd ((capturedBy_iff hsok).2 hl) (hnone j)
  have huse : UsesNng (decide (o.numTypes < 2)) o.primaryMethod := hum.imp id fun h => ⟨by simpa using h.1, h.2⟩
  obtain ⟨rows₀, -, he⟩ := h.nng
  have hsorted : (rows v).Pairwise (· ≤ ·) := by rw [he]; exact stored_sorted hst _
  have hfind : (rows v).find? (fun a => (seedLab rows (greedySeeds rows order) a).isSome) = some x := by
    cases hf : (rows v).find? (fun a => (seedLab rows (greedySeeds rows order) a).isSome) with
    | none =>
      have := List.find?_eq_none.1 hf x hx
      rw [(capturedBy_iff hsok).1 hxi] at this
      exact absurd rfl this
    | some y =>
      obtain ⟨hy1, as, bs, hab, has⟩ := List.find?_eq_some_iff_append.1 hf
      obtain ⟨j, hj⟩ := Option.isSome_iff_exists.1 hy1
      have hym : y ∈ rows v := List.mem_of_find?_eq_some hf
      have hxy := hmin j y hym ((capturedBy_iff hsok).2 hj)
      rw [hab] at hx hsorted
      rcases List.mem_append.1 hx with h1 | h1
      · have := has x h1
        rw [(capturedBy_iff hsok).1 hxi] at this
        simp at this
      · rcases List.mem_cons.1 h1 with h1 | h1
        · rw [h1]
        · have := (List.pairwise_cons.1 (List.pairwise_append.1 hsorted).2.1).1 x h1
          rw [Nat.le_antisymm hxy this]
  have hL2 : L2 v = some i := by
    rw [h.staged.nng v hvn, if_pos huse]
    unfold nngLab
    rw [hlab]
    dsimp only
    rw [hfind]
    exact (capturedBy_iff hsok).1 hxi
  have hL : L v = some i := h.keep4 hvn (h.keep3 hvn hL2)
  have hik : i < k := h.lt hv.size_two v i hvn hL
  exact mem_members.2 ⟨hvn, (h.labels.get_eq hc.config (h.lt hv.size_two) h.cap hvn hik).2 hL⟩

/-- The point 6 is not captured, and its captured neighbours are 2 and 4; it joins the cluster of 2. -/
example : OnSuccess sortedCfg (builtinSpi (some gapData)) (gapOpts .anyNeighbor) gapObj (sampleWorld [5]) (fun k b =>
      ∃ N seeds, SeedClusters sortedCfg (samePoints gapData) 7 (gapOpts .anyNeighbor) (List.range 7) (fun _ => 0) (fun _ => 0) k b N seeds ∧
        ∀ v ∈ List.range 7, (∀ j, ¬ CapturedBy N seeds j v) → ∀ i x, x ∈ N v → CapturedBy N seeds i x → (∀ j y, y ∈ N v → CapturedBy N seeds j y → x ≤ y) → v ∈ members b 7 i) ∧
    gapResult sortedCfg (builtinSpi (some gapData)) .anyNeighbor = some (.ok, 2, [0, 0, 0, 1, 1, 1, 0]) :=
  ⟨C63_smallest_index (ob := gapObj) (m := .lexical) gap_builtin (gap_call (Or.inr rfl) _) rfl rfl (Or.inl rfl), by decide +kernel⟩

/-- C63: the price. In builds with `SCC_STABLE_NNG`, the method `SCC_UM_CLOSEST_ASSIGNED` without types does not give the cluster of the closest point: the point 6 gets the label 0 although the point 4
with label 1 is closer than all points with label 0. Without the flag, the call is covered by C07. -/
theorem C63_not_closest :
    CallOk sortedCfg (gapOpts .closestAssigned) gapObj (List.range 7) (fun _ => 0) (fun _ => 0) (sampleWorld [5]) ∧
    ∃ ob b w', scClustering sortedCfg (builtinSpi (some gapData)) (gapOpts .closestAssigned) (some gapObj) (sampleWorld [5]) = some ((.ok, some ob), w') ∧ ob.cl.label = some b ∧
      6 ∈ members b.buf 7 0 ∧ 4 ∈ members b.buf 7 1 ∧ ∀ x ∈ members b.buf 7 0, x ≠ 6 → FloatOps.lt (gapData.dist 6 4) (gapData.dist 6 x) = true := by
  refine ⟨gap_call (Or.inr rfl) _, ?_⟩
  have h := C63_default_depends_on_order.2.2.1
  unfold gapResult at h
  rw [Option.bind_eq_some_iff] at h
  obtain ⟨⟨⟨e, p⟩, w'⟩, h1, h⟩ := h
  rw [Option.bind_eq_some_iff] at h
  obtain ⟨ob, h2, h⟩ := h
  rw [Option.bind_eq_some_iff] at h
  obtain ⟨b, h3, h⟩ := h
  rw [Option.map_eq_some_iff] at h
  obtain ⟨l, h4, h⟩ := h
  simp only [Prod.mk.injEq] at h
  obtain ⟨rfl, -, rfl⟩ := h
  dsimp only at h2
  subst h2
  have hget := (Buf.read_eq_some.1 h4).2
  have hmem : ∀ x i, x ∈ members b.buf 7 i ↔ x < 7 ∧ ([0, 0, 0, 1, 1, 1, 0] : List Int)[x]? = some (i : Int) := by
    intro x i
    rw [mem_members]
    exact and_congr_right fun hx => by rw [hget x hx]
  refine ⟨ob, b, w', h1, h3, (hmem 6 0).2 (by decide), (hmem 4 1).2 (by decide), fun x hx hne => ?_⟩
  obtain ⟨hx, hx'⟩ := (hmem x 0).1 hx
  exact (by decide +kernel : ∀ x < 7, ([0, 0, 0, 1, 1, 1, 0] : List Int)[x]? = some ((0 : Nat) : Int) → x ≠ 6 → FloatOps.lt (gapData.dist 6 4) (gapData.dist 6 x) = true) x hx hx' hne

/-- The options for batches. -/
def gapBatch (um : UnassignedMethod) (bs : Nat) : Options Int := { gapOpts um with seedMethod := .batches, primaryRadius := .useSeedRadius, batchSize := bs }

theorem gapBatch_fits (um : UnassignedMethod) (bs : Nat) : BatchFits (gapBatch um bs) 7 := by
  show 3 * (if bs = 0 then 7 else min bs 7) < 2 ^ 32
  split <;> omega

theorem gapBatch_accepts {um : UnassignedMethod} (bs : Nat) (h : um ≠ .unknown) :
    Accepts sortedCfg (builtinSpi (some gapData)).valid (builtinSpi (some gapData)).numPoints (gapBatch um bs) gapObj.cl (List.range 7) where
  initialized := by decide
  valid := by decide
  points := by decide
  options := ⟨rfl, by show 2 ≤ 3; decide, by show 3 ≤ 7; decide, Or.inl ⟨by show 0 < 2; decide, rfl, rfl, rfl⟩, nofun, Or.inl ⟨rfl, rfl⟩, h, Or.inl rfl, ⟨Or.inl rfl, nofun, nofun⟩, ⟨nofun, nofun⟩,
    ⟨nofun, nofun⟩, fun _ => ⟨by show 0 < 2; decide, rfl, rfl⟩⟩
  empty := rfl

theorem gapBatch_call (um : UnassignedMethod) (bs : Nat) : CallOk sortedCfg (gapBatch um bs) gapObj (List.range 7) (fun _ => 0) (fun _ => 0) (sampleWorld [5]) where
  config := ⟨by decide, by decide, by decide, by decide, by decide⟩
  live := by simp [gapObj, sampleWorld, ptrOwn, ptrIds]
  room := by intro lb h; cases h
  arrays := ⟨fun _ => rfl, nofun, fun x hx => List.mem_range.1 hx, nofun, nofun⟩
  limits := fun _ => ⟨by show 7 * 3 ≤ 2 ^ 64 - 1; decide, fun h => absurd h (by show ¬ 2 ≤ 0; decide)⟩
  unchecked := fun _ => rfl

/-- The two searches also give the same clusters in batches. -/
example (direct : Bool) (bs : Nat) :
    SameClusters 7 (scClustering sortedCfg (builtinSpi (some gapData)) (gapBatch .anyNeighbor bs) (some gapObj) (sampleWorld [5]))
      (scClustering sortedCfg (annTidySpi direct backLib (some gapData)) (gapBatch .anyNeighbor bs) (some gapObj) (sampleWorld [5])) :=
  C63_same_clusters_batches (ob := gapObj) (ob' := gapObj) rfl gap_builtin (annTidySpi_ok (backLib_ok gapData) gapData_complete direct) (fun h => h)
    (by show ¬ 2 ^ 31 - 1 < 7; decide) (gapBatch_call _ bs) (gapBatch_call _ bs) rfl (gapBatch_fits _ bs) (gapBatch_accepts bs (by decide)) (gapBatch_accepts bs (by decide)) (Or.inr rfl)
    (fun _ _ => rfl) (fun _ _ => rfl) (samePoints_determined rfl 7 gapData)

/-- C45 in builds with `SCC_STABLE_NNG`. -/
example (bs : Nat) : OnSuccess sortedCfg (builtinSpi (some gapData)) (gapBatch .anyNeighbor bs) gapObj (sampleWorld [5])
    fun k b => ∃ core, BatchClusters gapData.NoFarther gapData.Within (gapBatch .anyNeighbor bs) 7 (List.range 7) k b core := by
  have h : ∀ s < 7, ∀ x < 7, ∀ y < 7, gapData.sqd s x ≤ gapData.sqd s s → gapData.sqd s x ≤ gapData.sqd s y := by decide +kernel
  exact C45_batch_clusters (ob := gapObj) (builtinSpi_nearest intLaws gapData gapData_complete fun _ _ _ _ => int_isNum _) (gapBatch_call _ bs) rfl (gapBatch_fits _ bs)
    fun _ s hs x hx y hy hle => by simpa [DataSet.NoFarther, FloatOps.le] using h s hs x hx y hy (by simpa [DataSet.NoFarther, FloatOps.le] using hle)

end Scc
