/-
Calls that succeed, and a concrete run that is used for the examples beside the property theorems.
-/
import Verif.Proofs.RunFacts
import Verif.Proofs.Nearest
import Verif.Proofs.SampleData

set_option linter.unusedSimpArgs false
set_option linter.unusedVariables false

namespace Scc

variable {F : Type} [FloatOps F]

theorem Rejects.not_accepts {cfg : Cfg} {valid : Bool} {np : Nat} {o : Options F} {cl : Clustering} {P : List Nat} {e : ErrorCode} (h : Rejects cfg valid np o cl P e)
    (ha : Accepts cfg valid np o cl P) : False := by
  rcases h with ⟨-, h | h | h⟩ | ⟨h, -⟩ | ⟨-, -, h⟩
  · rw [ha.initialized] at h; cases h
  · rw [ha.valid] at h; cases h
  · exact h ha.points
  · exact h ha.options
  · exact h ha.empty

/-- An accepted call succeeds when nothing fails, the digraph fits and some point can be a seed. -/
theorem run_ok {cfg : Cfg} {spi : Spi F} {A : Criterion F} {dist : Nat → Nat → F} {o : Options F} {ob : ClObj}
    (hs : SpiOk spi ob.cl.n A dist False) {P : List Nat} {lab c : Nat → Nat} {w : World} (hc : CallOk cfg o ob P lab c w) {m : SeedMethod} (hm : o.seedMethod = .method m)
    (hacc : Accepts cfg spi.valid spi.numPoints o ob.cl P) (hw : w.NoFail) (hbig : ¬ TooBig cfg ob.cl.n o.sizeConstraint m) (hns : ¬ NoSeeds A ob.cl.n o P lab c)
    (hest : ∀ rows order, NngStored cfg A ob.cl.n o P lab c rows → MethodOrder m rows ob.cl.n order → ¬ BadEstimate dist o rows (greedySeeds rows order))
    (hsum : 2 ≤ o.numTypes → ((List.range o.numTypes).map c).sum ≤ o.sizeConstraint) :
    ∃ cl b w' rows order L2 L3 L, scClustering cfg spi o (some ob) w = some ((.ok, some ⟨ob.id, cl⟩), w') ∧ cl.label = some b ∧
      RunData cfg A dist ob.cl.n o m P lab c False rows order L2 L3 L cl.numClusters b.buf := by
  obtain ⟨⟨e, p⟩, w', h1, h2⟩ := scClustering_spec hs hc hm
  rcases h2 with h2 | ⟨-, -, M, cl', hlive, hp, h2⟩
  · exact absurd hacc fun h => h2.cause.not_accepts h
  · have hlost : (¬ w.NoFail ∨ False) = False := by simp [hw]
    dsimp only at hp
    subst hp
    cases h2 with
    | done _ _ rows order L2 L3 L id l data lab' live =>
      rw [hlost] at data
      exact ⟨cl', ⟨id, l⟩, w', rows, order, L2, L3, L, h1, by rw [lab'.eq], data⟩
    | early _ _ _ leak cause unt err live leaked =>
      exfalso
      rcases cause with (⟨-, h⟩ | ⟨-, h⟩ | ⟨-, h⟩) | ⟨-, h | ⟨rows, order, h3, -, h4, h5⟩⟩ | ⟨-, h3, h4⟩
      · exact hbig h
      · exact h hw
      · rw [hlost] at h; exact h
      · exact hns h
      · exact hest rows order h3 h4.1 h5
      · have := hsum h3; omega
    | late _ _ _ L id l cause err search labels lt pos cap lab' live =>
      exfalso
      rcases cause with ⟨-, h⟩ | ⟨-, h⟩ | ⟨-, h⟩
      · exact h
      · exact h hw
      · rw [hlost] at h; exact h

/-! ### A concrete run: six points on a line, clusters of two -/

/-- Options for clusters of at least two points, with the given settings for primary points. -/
def lineOpts (um : UnassignedMethod) (pr : RadiusMethod) (r : Int) : Options Int :=
  { (defaultOptions : Options Int) with sizeConstraint := 2, primaryMethod := um, primaryRadius := pr, primarySupplied := r }

/-- An empty clustering object for six points. -/
def lineObj : ClObj := ⟨5, clusteringVersion, 6, 0, none, false⟩

/-- The criterion that the built-in search satisfies. -/
abbrev lineA : Criterion Int := fun set k radius q a => a = nnAnswer (lineData.sqd q) set k radius

def lineSpi_ok : SpiOk (builtinSpi (some lineData)) lineObj.cl.n lineA lineData.dist False := builtinSpi_ok lineData lineData_complete

theorem line_call (um : UnassignedMethod) (pr : RadiusMethod) (r : Int) :
    CallOk sampleCfg (lineOpts um pr r) lineObj (List.range 6) (fun _ => 0) (fun _ => 0) (sampleWorld [5]) where
  config := sampleCfg_valid
  live := by simp [lineObj, sampleWorld, ptrOwn, ptrIds]
  room := by intro lb h; cases h
  arrays := ⟨fun _ => rfl, fun b h => by simp [lineOpts, defaultOptions] at h, fun x hx => List.mem_range.1 hx, fun b h => by simp [lineOpts, defaultOptions] at h,
    fun b h => by simp [lineOpts, defaultOptions] at h⟩
  limits := fun _ => ⟨by show 6 * 2 ≤ 2 ^ 64 - 1; decide, fun h => by simp [lineOpts, defaultOptions] at h⟩
  unchecked := fun _ => rfl

theorem line_accepts {um : UnassignedMethod} {pr : RadiusMethod} {r : Int} (h1 : um ≠ .unknown) (h2 : ValidRadius pr r) :
    Accepts sampleCfg (builtinSpi (some lineData)).valid (builtinSpi (some lineData)).numPoints (lineOpts um pr r) lineObj.cl (List.range 6) where
  initialized := by decide
  valid := by decide
  points := by decide
  options :=
    { version := rfl
      size_two := le_refl 2
      size_le := by show 2 ≤ 6; decide
      types := Or.inl ⟨by show 0 < 2; decide, rfl, rfl, rfl⟩
      seed := nofun
      primary := Or.inl ⟨rfl, rfl⟩
      primaryMethod := h1
      secondaryMethod := Or.inl rfl
      seedRadius := ⟨Or.inl rfl, nofun, nofun⟩
      primaryRadius := h2
      secondaryRadius := ⟨nofun, nofun⟩
      batches := nofun }
  empty := rfl

/-- A call on the points of the line that returns "ok". -/
def LineOk (o : Options Int) : Prop :=
  ∃ cl w', scClustering sampleCfg (builtinSpi (some lineData)) o (some lineObj) (sampleWorld [5]) = some ((.ok, some ⟨5, cl⟩), w')

theorem line_callOk {o : Options Int} {P : List Nat} {lab c : Nat → Nat} (ha : OptionArrays 6 o P lab c) (hl : WithinLimits sampleCfg 6 o c) :
    CallOk sampleCfg o lineObj P lab c (sampleWorld [5]) where
  config := sampleCfg_valid
  live := by simp [lineObj, sampleWorld, ptrOwn, ptrIds]
  room := by intro lb h; cases h
  arrays := ha
  limits := fun _ => hl
  unchecked := fun _ => rfl

theorem line_ok {o : Options Int} {P : List Nat} {lab c : Nat → Nat} (hv : ValidOptions o 6 P) (ha : OptionArrays 6 o P lab c) (hl : WithinLimits sampleCfg 6 o c)
    {m : SeedMethod} (hm : o.seedMethod = .method m) (hme : ¬ m.IsExclusion) (hns : ¬ NoSeeds lineA 6 o P lab c)
    (hest : ∀ rows order, NngStored sampleCfg lineA 6 o P lab c rows → MethodOrder m rows 6 order → ¬ BadEstimate lineData.dist o rows (greedySeeds rows order))
    (hsum : 2 ≤ o.numTypes → ((List.range o.numTypes).map c).sum ≤ o.sizeConstraint) : LineOk o := by
  obtain ⟨cl, b, w', rows, order, L2, L3, L, h4, h5, h6⟩ := run_ok lineSpi_ok (line_callOk ha hl) hm ⟨by decide, by decide, by decide, hv, rfl⟩ (fun _ _ => rfl)
    (by
      have h1 := hv.size_le
      simp only [TooBig, hme, false_and, or_false, not_or, not_lt]
      refine ⟨?_, by decide⟩
      calc 6 * o.sizeConstraint ≤ 6 * 6 := Nat.mul_le_mul_left 6 h1
        _ ≤ _ := by decide) hns hest hsum
  exact ⟨cl, w', h4⟩

/-- The nearest neighbours of the points on the line. -/
def lineRows (v : Nat) : List Nat := [[1], [0], [1], [4], [3], [4]].getD v []

theorem line_rows {o : Options Int} (hS : o.sizeConstraint = 2) (hT : o.numTypes < 2) (hR : seedLimit o = none) {rows : Nat → List Nat}
    (h : NngOf lineA 6 o (List.range 6) (fun _ => 0) (fun _ => 0) rows) : ∀ v, v < 6 → rows v = lineRows v := by
  intro v hv
  rcases h with ⟨-, ans, h1, h2⟩ | ⟨h, -⟩
  · rw [h2 v hv]
    have := h1.crit v (List.mem_range.2 hv)
    rw [hS, hR] at this
    unfold ansRows
    rw [this]
    clear this
    revert v
    decide
  · omega

theorem greedySeeds_congr {rows rows' : Nat → List Nat} {order : List Nat} (h : ∀ v ∈ order, rows v = rows' v) : greedySeeds rows order = greedySeeds rows' order := by
  have key : ∀ (l S : List Nat), (∀ v ∈ l, v ∈ order) → (∀ v ∈ S, v ∈ order) →
      l.foldl (fun S v => if CanAdd rows S v then S ++ [v] else S) S = l.foldl (fun S v => if CanAdd rows' S v then S ++ [v] else S) S := by
    intro l
    induction l with
    | nil => intro S _ _; rfl
    | cons x l ih =>
      intro S hl hS
      have hx := hl x (by simp)
      have e : CanAdd rows S x ↔ CanAdd rows' S x := by
        unfold CanAdd closedNbr
        rw [h x hx]
        refine and_congr Iff.rfl (forall₂_congr fun s hs => ?_)
        rw [h s (hS s hs)]
      have e2 : (if CanAdd rows S x then S ++ [x] else S) = if CanAdd rows' S x then S ++ [x] else S := if_congr e rfl rfl
      rw [List.foldl_cons, List.foldl_cons, e2]
      refine ih _ (fun v hv => hl v (by simp [hv])) fun v hv => ?_
      split at hv
      · rcases List.mem_append.1 hv with h' | h'
        · exact hS v h'
        · rw [List.mem_singleton] at h'; rw [h']; exact hx
      · exact hS v hv
  exact key order [] (fun _ h => h) (by simp)

theorem seedLab_congr {rows rows' : Nat → List Nat} {seeds : List Nat} {v : Nat} (h : ∀ s ∈ seeds, rows s = rows' s) : seedLab rows seeds v = seedLab rows' seeds v := by
  unfold seedLab
  induction seeds with
  | nil => rfl
  | cons x l ih =>
    have hx : closedNbr rows x = closedNbr rows' x := by unfold closedNbr; rw [h x (by simp)]
    rw [List.findIdx?_cons, List.findIdx?_cons, hx, ih fun s hs => h s (by simp [hs])]

theorem nngLab_congr {n v : Nat} (hv : v < n) {rows rows' : Nat → List Nat} {L L' : Nat → Option Nat} (hL : ∀ v, v < n → L v = L' v) (hr : rows v = rows' v)
    (hin : ∀ a ∈ rows' v, a < n) : nngLab rows L v = nngLab rows' L' v := by
  unfold nngLab
  rw [hL v hv, hr]
  have : ∀ l : List Nat, (∀ a ∈ l, a < n) → (l.find? fun a => (L a).isSome).bind L = (l.find? fun a => (L' a).isSome).bind L' := by
    intro l
    induction l with
    | nil => intro _; rfl
    | cons x l ih =>
      intro hl
      have hx := hL x (hl x (by simp))
      rw [List.find?_cons, List.find?_cons, hx]
      cases hc : (L' x).isSome with
      | true => exact hx
      | false => exact ih fun a ha => hl a (by simp [ha])
  rw [this _ hin]

theorem line_run {um : UnassignedMethod} {pr : RadiusMethod} {r : Int} (h1 : um = .anyNeighbor ∨ um = .closestAssigned) (h2 : ValidRadius pr r) (h3 : pr ≠ .useEstimated) :
    ∃ cl b w', scClustering sampleCfg (builtinSpi (some lineData)) (lineOpts um pr r) (some lineObj) (sampleWorld [5]) = some ((.ok, some ⟨5, cl⟩), w') ∧
      cl.numClusters = 2 ∧ cl.label = some b ∧ b.buf.read 6 = some [0, 0, 0, 1, 1, 1] := by
  have hum : um ≠ .unknown := by rcases h1 with rfl | rfl <;> decide
  obtain ⟨cl, b, w', rows, order, L2, L3, L, h4, h5, h6⟩ := run_ok (m := .lexical) lineSpi_ok (line_call um pr r) rfl (line_accepts hum h2) (fun _ _ => rfl)
    (by simp [TooBig, SeedMethod.IsExclusion]; show 6 * 2 ≤ 2 ^ 32 - 1 ∧ 6 ≤ 2 ^ 31 - 1; decide) (by
      rintro (⟨-, h, -⟩ | ⟨h, -⟩)
      · exact h rfl
      · exact absurd h (by show ¬ 2 ≤ 0; decide))
    (by
      rintro rows order - - ⟨⟨-, h⟩ | ⟨h, -⟩, -⟩
      · exact h3 h
      · exact h rfl)
    (fun h => by revert h; simp [lineOpts, defaultOptions])
  refine ⟨cl, b, w', h4, ?_, h5, ?_⟩
  all_goals
    have hrows := line_rows (o := lineOpts um pr r) rfl (by decide : (0:Nat) < 2) rfl (h6.nng.off rfl)
    have hord : order = List.range 6 := h6.method.1
    have hseeds : greedySeeds rows order = [0, 3] := by
      rw [hord, greedySeeds_congr (rows' := lineRows) fun v hv => hrows v (List.mem_range.1 hv)]; decide
  · rw [h6.count, hseeds]; rfl
  · have hseed : ∀ v, v < 6 → seedLab rows (greedySeeds rows order) v = seedLab lineRows [0, 3] v := by
      intro v hv
      rw [hseeds]
      refine seedLab_congr fun s hs => hrows s ?_
      rcases List.mem_cons.1 hs with rfl | hs
      · decide
      · rw [List.mem_singleton] at hs; rw [hs]; decide
    have hL2 : ∀ v, v < 6 → L2 v = nngLab lineRows (seedLab lineRows [0, 3]) v := by
      intro v hv
      have hu : UsesNng (decide ((lineOpts um pr r).numTypes < 2)) (lineOpts um pr r).primaryMethod := by
        rcases h1 with rfl | rfl
        · exact Or.inl rfl
        · exact Or.inr ⟨rfl, rfl⟩
      rw [h6.staged.nng v hv, if_pos hu]
      exact nngLab_congr hv hseed (hrows v hv) (by revert v; decide)
    have hL3 : ∀ v, v < 6 → L3 v = L2 v := by
      intro v hv
      obtain ⟨j, hj⟩ : ∃ j, L2 v = some j := by
        apply Option.isSome_iff_exists.1
        rw [hL2 v hv]
        clear hL2 hseed hrows
        revert v
        decide
      rw [hj, h6.keep3 hv hj]
    have hL : ∀ v, v < 6 → L v = L2 v := by
      intro v hv
      rw [← hL3 v hv]
      rcases h6.staged.second with h | ⟨h, -⟩
      · exact h v hv
      · exact absurd h id
    rw [Buf.read_eq_some]
    refine ⟨rfl, fun v hv => ?_⟩
    rw [h6.labels v hv, hL v hv, hL2 v hv]
    clear hL hL2 hL3 hseed hrows
    revert v
    decide

end Scc
