/-
Property C67: running out of memory does not change a result unnoticed.

The functions return "ok" with the result that they have when no allocation fails, or they report an error. This is true of all functions except for the assignment of secondary points by
`scc_sc_clustering`: a search that fails there goes unnoticed, and points that should be assigned are not (`C67_fails_secondary`).
-/
import Verif.Proofs.Calm
import Verif.Props.StableNng
import Verif.Props.SearchFailures

set_option linter.unusedVariables false

namespace Scc

variable {F : Type} [FloatOps F]

/-- The ways in which a call ends, whatever allocations fail. -/
theorem run_cases_any {cfg : Cfg} {spi : Spi F} {A : Criterion F} {dist : Nat → Nat → F} {o : Options F} {ob : ClObj}
    (hs : SpiOk spi ob.cl.n A dist False) {P : List Nat} {lab c : Nat → Nat} {w : World} (hc : CallOk cfg o ob P lab c w) {m : SeedMethod} (hm : o.seedMethod = .method m)
    (hacc : Accepts cfg spi.valid spi.numPoints o ob.cl P) (hbig : ¬ TooBig cfg ob.cl.n o.sizeConstraint m) (ht : o.numTypes < 2) :
    (∃ cl b w' rows order L2 L3 L, scClustering cfg spi o (some ob) w = some ((.ok, some ⟨ob.id, cl⟩), w') ∧ cl.label = some b ∧
      RunData cfg A dist ob.cl.n o m P lab c (¬ w.NoFail) rows order L2 L3 L cl.numClusters b.buf) ∨
    (∃ p w', scClustering cfg spi o (some ob) w = some ((.noSolution, p), w') ∧ (NoSeeds A ob.cl.n o P lab c ∨
      ∃ rows order, NngStored cfg A ob.cl.n o P lab c rows ∧ order.Perm (List.range ob.cl.n) ∧ BuildOrder cfg m rows ob.cl.n order ∧ BadEstimate dist o rows (greedySeeds rows order))) ∨
    ∃ e p w', scClustering cfg spi o (some ob) w = some ((e, p), w') ∧ ¬ w.NoFail ∧ (e = .noMemory ∨ e = .distSearch) := by
  obtain ⟨⟨e, p⟩, w', h1, h2⟩ := scClustering_spec hs hc hm
  rcases h2 with h2 | ⟨-, -, M, cl', hlive, hp, h2⟩
  · exact absurd hacc fun h => h2.cause.not_accepts h
  · dsimp only at hp
    subst hp
    cases h2 with
    | done _ _ rows order L2 L3 L id l data lab' live =>
      rw [or_false] at data
      exact Or.inl ⟨cl', ⟨id, l⟩, w', rows, order, L2, L3, L, h1, by rw [lab'.eq], data⟩
    | early _ _ _ leak cause unt err live leaked =>
      rcases cause with (⟨-, h⟩ | ⟨rfl, h⟩ | ⟨rfl, h⟩) | ⟨rfl, h⟩ | ⟨-, h3, h4⟩
      · exact absurd h hbig
      · exact Or.inr (Or.inr ⟨_, _, _, h1, h, Or.inl rfl⟩)
      · exact Or.inr (Or.inr ⟨_, _, _, h1, h.resolve_right id, Or.inr rfl⟩)
      · exact Or.inr (Or.inl ⟨_, _, h1, h⟩)
      · omega
    | late _ _ _ L id l cause err search labels lt pos cap lab' live =>
      rcases cause with ⟨-, h⟩ | ⟨rfl, h⟩ | ⟨rfl, h⟩
      · exact h.elim
      · exact Or.inr (Or.inr ⟨_, _, _, h1, h, Or.inl rfl⟩)
      · exact Or.inr (Or.inr ⟨_, _, _, h1, h.resolve_right not_false, Or.inr rfl⟩)

/-- C67 for the methods that construct a digraph. The call is made twice: in a process in which any allocations may fail, and in one in which none fails. If the first call reports neither lack of memory nor
a failed search, it returns the code of the second. If that is "ok", the clusters are the same: the same number of clusters and the same labels, unless secondary points are assigned
by a search; then it can happen that points are left unassigned.

Missing from C67: that no points are left unassigned when the secondary points are assigned by a search, which is false (`C67_fails_secondary`). Calls with type constraints, with searches that
do not determine their answers, or with the updating seed methods in builds without `SCC_STABLE_FINDSEED` are covered by `C67_calls_partial` (Props/PressureCalls.lean). -/
theorem C67_methods_partial {cfg : Cfg} {spi : Spi F} {A : Criterion F} {dist : Nat → Nat → F} {o : Options F} {ob : ClObj}
    (hs : SpiOk spi ob.cl.n A dist False) {P : List Nat} {lab c : Nat → Nat} {w v : World}
    (hc : CallOk cfg o ob P lab c w) (hc' : CallOk cfg o ob P lab c v) (hv : v.NoFail) {m : SeedMethod} (hm : o.seedMethod = .method m)
    (hacc : Accepts cfg spi.valid spi.numPoints o ob.cl P) (hbig : ¬ TooBig cfg ob.cl.n o.sizeConstraint m) (ht : o.numTypes < 2) (hdet : Determined cfg (Strict ob.cl.n A))
    (hself : cfg.stableNng = true → ∀ q ∈ P, ∀ a, Strict ob.cl.n A (List.range ob.cl.n) o.sizeConstraint (seedLimit o) q (some a) → q ∈ a)
    (hstable : m = .inwardsUpdating ∨ m = .exclusionUpdating → cfg.stableSeeds = true) :
    ∃ e p w', scClustering cfg spi o (some ob) w = some ((e, p), w') ∧ (e = .noMemory ∨ e = .distSearch ∨
      ∃ p' v', scClustering cfg spi o (some ob) v = some ((e, p'), v') ∧ (e = .ok → ∃ ob1 ob2, p = some ob1 ∧ p' = some ob2 ∧ LeavesOut cfg ob.cl.n ob1 ob2) ∧
        (o.secondaryMethod ≠ .closestAssigned ∧ o.secondaryMethod ≠ .closestSeed → SameClusters ob.cl.n (scClustering cfg spi o (some ob) w) (scClustering cfg spi o (some ob) v))) := by
  have hS := hacc.options.size_two
  have hP := hc.arrays.range
  have hs1 := hs.strict
  have key : ∀ {rows rows' : Nat → List Nat} {order order' : List Nat}, NngStored cfg (Strict ob.cl.n A) ob.cl.n o P lab c rows → NngStored cfg (Strict ob.cl.n A) ob.cl.n o P lab c rows' →
      order.Perm (List.range ob.cl.n) → order'.Perm (List.range ob.cl.n) → BuildOrder cfg m rows ob.cl.n order → BuildOrder cfg m rows' ob.cl.n order' →
      BadEstimate dist o rows (greedySeeds rows order) → BadEstimate dist o rows' (greedySeeds rows' order') := by
    intro rows rows' order order' g1 g2 g3 g4 g5 g6 g7
    have hrows := NngStored.unique hdet ht hself g1 g2
    have hseeds := seeds_unique hstable hrows g3 g4 g5 g6
    have hlt : ∀ s ∈ greedySeeds rows order, s < ob.cl.n := fun s hs => List.mem_range.1 (g3.mem_iff.1 ((greedySeeds_sublist _ _).subset hs))
    refine ⟨g7.1, ?_⟩
    rw [← hseeds, ← seedEstimate_congr fun s hs => hrows s (hlt s hs)]
    exact g7.2
  rcases run_cases_any hs1 hc hm hacc hbig ht with ⟨cl, b, w', rows, order, L2, L3, L, h1, h2, h3⟩ | ⟨p, w', h1, h2⟩ | ⟨e, p, w', h1, -, h2⟩
  · refine ⟨_, _, _, h1, Or.inr (Or.inr ?_)⟩
    rcases run_cases hs1 hc' hm hacc hv hbig ht with ⟨cl', b', v', rows', order', M2, M3, M, h1', h2', h3'⟩ | ⟨p', v', h1', h2'⟩
    · obtain ⟨k1, k2⟩ := RunData.unique_lost hdet hP ht hself hstable h3 h3'
      refine ⟨_, _, h1', fun _ => ⟨_, _, rfl, rfl, b, b', h2, h2', k1, fun x hx => ⟨_, h3'.labels x hx, ?_⟩⟩, fun hsec => ?_⟩
      · rw [← h3'.labels x hx]
        rcases k2 with k2 | ⟨-, -, k2⟩
        · exact Or.inl (k2 x hx)
        · exact k2 x hx
      · have k2' := k2.resolve_right fun h => h.2.1.elim hsec.1 hsec.2
        refine ⟨_, _, _, _, _, h1, h1', fun _ => ⟨_, _, b, b', rfl, rfl, h2, h2', k1, fun v hv => ⟨_, h3.labels v hv, ?_⟩⟩⟩
        rw [← k2' v hv, h3.labels v hv]
    · exfalso
      rcases h2' with h | ⟨rows', order', g1, g2, g3, g4⟩
      · exact NoSeeds.not_done hdet hS ht h3 h
      · exact h3.estimate (key g1 h3.nng g2 h3.perm g3 h3.method g4)
  · refine ⟨_, _, _, h1, Or.inr (Or.inr ?_)⟩
    rcases run_cases hs1 hc' hm hacc hv hbig ht with ⟨cl', b', v', rows', order', M2, M3, M, h1', h2', h3'⟩ | ⟨p', v', h1', h2'⟩
    · exfalso
      rcases h2 with h | ⟨rows, order, g1, g2, g3, g4⟩
      · exact NoSeeds.not_done hdet hS ht h3' h
      · exact h3'.estimate (key g1 h3'.nng g2 h3'.perm g3 h3'.method g4)
    · exact ⟨_, _, h1', nofun, fun _ => ⟨_, _, _, _, _, h1, h1', nofun⟩⟩
  · exact ⟨e, p, w', h1, h2.imp id Or.inl⟩

/-- C67 for batches: a call that reports neither lack of memory nor a failed search gives the code and the clusters that it gives when no allocation fails. -/
theorem C67_batches {cfg : Cfg} {spi : Spi F} {A : Criterion F} {dist : Nat → Nat → F} {o : Options F} {ob : ClObj}
    (hs : SpiOk spi ob.cl.n A dist False) {P : List Nat} {lab c : Nat → Nat} {w v : World}
    (hc : CallOk cfg o ob P lab c w) (hc' : CallOk cfg o ob P lab c v) (hv : v.NoFail) (hm : o.seedMethod = .batches) (hfit : BatchFits o ob.cl.n)
    (hacc : Accepts cfg spi.valid spi.numPoints o ob.cl P) (hum : o.primaryMethod = .ignore ∨ o.primaryMethod = .anyNeighbor) (hdet : Determined cfg (Strict ob.cl.n A)) :
    ∃ e p w', scClustering cfg spi o (some ob) w = some ((e, p), w') ∧ (e = .noMemory ∨ e = .distSearch ∨
      SameClusters ob.cl.n (scClustering cfg spi o (some ob) w) (scClustering cfg spi o (some ob) v)) := by
  classical
  let B : Nat → Option (List Nat) → Prop := Strict ob.cl.n A (List.range ob.cl.n) o.sizeConstraint (seedLimit o)
  obtain ⟨g, hg⟩ : ∃ g : Nat → Option (List Nat), ∀ q a, B q a → a.map (stored cfg) = g q := by
    refine ⟨fun q => if h : ∃ a, B q a then h.choose.map (stored cfg) else none, fun q a ha => ?_⟩
    have hex : ∃ a, B q a := ⟨a, ha⟩
    dsimp only
    rw [dif_pos hex]
    exact hdet.stored_eq ha hex.choose_spec
  obtain ⟨⟨e, p⟩, w', h1, h2⟩ := scBatches_determined_any hs.strict hc hm hfit hacc hum hg
  obtain ⟨⟨e', p'⟩, v', h1', h2'⟩ := scBatches_determined hs.strict hc' hm hfit hacc hum hv hg
  refine ⟨e, p, w', h1, ?_⟩
  rcases h2 with h2 | ⟨-, h2⟩
  swap
  · exact h2.imp id Or.inl
  right; right
  generalize seqRun (decide (o.primaryMethod = .ignore)) (P.map fun q => (q, g q)) = st at h2 h2'
  cases h2 with
  | ok cl b pos cap count label points labels =>
    cases h2' with
    | ok cl' b' pos' cap' count' label' points' labels' =>
      exact ⟨_, _, _, _, _, h1, h1', fun _ => ⟨_, _, b, b', rfl, rfl, label, label', by rw [count, count'], fun v hv => ⟨_, labels v hv, labels' v hv⟩⟩⟩
    | tooLarge p big => omega
    | noSeeds cl b none count label labels => rw [none] at pos; simp at pos
  | tooLarge p big =>
    cases h2' with
    | ok cl' b' pos' cap' count' label' points' labels' => omega
    | tooLarge p big => exact ⟨_, _, _, _, _, h1, h1', nofun⟩
    | noSeeds cl b none count label labels => rw [none] at big; simp at big
  | noSeeds cl b none count label labels =>
    cases h2' with
    | ok cl' b' pos' cap' count' label' points' labels' => rw [none] at pos'; simp at pos'
    | tooLarge p big => rw [none] at big; simp at big
    | noSeeds cl b none count label labels => exact ⟨_, _, _, _, _, h1, h1', nofun⟩

/-! ### The other functions

Here the outcome is the very same as without failing allocations, including the addresses of blocks. -/

/-- C67 for hierarchical clustering, with any back end that reports its failed allocations. -/
theorem C67_hierarchical {spi : Spi F} (hs : spi.Steady) (cfg : Cfg) (hi : HiEnv F) (S : Nat) (batch : Bool) (p : Option ClObj) {w w' : World} {q : Option ClObj}
    (h : hierarchical cfg hi spi S batch p w = some ((.ok, q), w')) : hierarchical cfg hi spi S batch p w.calm = some ((.ok, q), w'.calm) :=
  (calm_hierarchical hs cfg hi S batch p w _ h).resolve_right fun h => h rfl

/-- C67 for statistics. -/
theorem C67_stats {spi : Spi F} (hs : spi.Steady) (cfg : Cfg) (p : Option ClObj) (hasOut : Bool) {w w' : World} {s : Option (Stats F)}
    (h : getStats cfg spi p hasOut w = some ((.ok, s), w')) : getStats cfg spi p hasOut w.calm = some ((.ok, s), w'.calm) :=
  (calm_getStats hs cfg p hasOut w _ h).resolve_right fun h => h rfl

/-- C67 for checking a clustering. -/
theorem C67_check (cfg : Cfg) (p : Option ClObj) (o : Options F) (hasOut : Bool) {w w' : World} {b : Option Bool}
    (h : checkClustering cfg p o hasOut w = some ((.ok, b), w')) : checkClustering cfg p o hasOut w.calm = some ((.ok, b), w'.calm) :=
  (calm_checkClustering cfg p o hasOut w _ h).resolve_right fun h => h rfl

omit [FloatOps F] in
/-- C67 for copying a clustering, and for making clusterings and data sets. -/
theorem C67_objects (cfg : Cfg) {w w' : World} :
    (∀ p hasOut q, copyClustering cfg p hasOut w = some ((.ok, q), w') → copyClustering cfg p hasOut w.calm = some ((.ok, q), w'.calm)) ∧
    (∀ n l hasOut q, initEmpty cfg n l hasOut w = some ((.ok, q), w') → initEmpty cfg n l hasOut w.calm = some ((.ok, q), w'.calm)) ∧
    (∀ n k l deep hasOut q, initExisting cfg n k l deep hasOut w = some ((.ok, q), w') → initExisting cfg n k l deep hasOut w.calm = some ((.ok, q), w'.calm)) ∧
    ∀ n d len (data : Option (Buf F)) hasOut q, initDataSet cfg n d len data hasOut w = some ((.ok, q), w') → initDataSet cfg n d len data hasOut w.calm = some ((.ok, q), w'.calm) :=
  ⟨fun p a q h => (calm_copyClustering cfg p a w _ h).resolve_right fun h => h rfl, fun n l a q h => (calm_initEmpty cfg n l a w _ h).resolve_right fun h => h rfl,
    fun n k l d a q h => (calm_initExisting cfg n k l d a w _ h).resolve_right fun h => h rfl, fun n d l b a q h => (calm_initDataSet cfg n d l b a w _ h).resolve_right fun h => h rfl⟩

/-! ### Examples -/

/-- A process in which the allocations with the given numbers fail. -/
def failingWorld (ids : List Nat) (at_ : List Nat) : World := { sampleWorld ids with fails := fun i c => c && at_.contains i }

/-- The error code, the number of clusters and the labels of a call for the six points, in a process in which the given allocations fail. -/
def pressResult (o : Options Int) (at_ : List Nat) : Option (ErrorCode × Nat × Option (List Int)) :=
  (scClustering sampleCfg (builtinSpi (some lineData)) o (some lineObj) (failingWorld [5] at_)).bind fun r => r.1.2.map fun ob => (r.1.1, ob.cl.numClusters, ob.cl.label.bind fun b => b.buf.read 6)

/-- The call for the six points has defined behaviour whatever checked allocations fail. -/
theorem press_call {o : Options Int} {P : List Nat} {lab c : Nat → Nat} (h : CallOk sampleCfg o lineObj P lab c (sampleWorld [5])) (at_ : List Nat) :
    CallOk sampleCfg o lineObj P lab c (failingWorld [5] at_) := ⟨h.config, h.live, h.room, h.arrays, h.limits, fun _ => rfl⟩

/-- The answers of the built-in search are determined. -/
theorem lineA_determined : Determined sampleCfg (Strict 6 lineA) := by
  rintro set k R q a a' ⟨rfl, -⟩ ⟨h, -⟩
  unfold lineA at h
  subst h
  cases nnAnswer (lineData.sqd q) set k R with
  | none => exact .none
  | some l => exact .some rfl

theorem line_small : ¬ TooBig sampleCfg 6 2 .lexical := by simp [TooBig, SeedMethod.IsExclusion]; show 6 * 2 ≤ 2 ^ 32 - 1 ∧ 6 ≤ 2 ^ 31 - 1; decide

/-- The hypotheses of C67 for the six points, with any of the assignment methods, whatever checked allocations fail. -/
example (at_ : List Nat) (um : UnassignedMethod) (hum : um ≠ .unknown) :
    ∃ e p w', scClustering sampleCfg (builtinSpi (some lineData)) (lineOpts um .noRadius 0) (some lineObj) (failingWorld [5] at_) = some ((e, p), w') ∧ (e = .noMemory ∨ e = .distSearch ∨
      SameClusters 6 (scClustering sampleCfg (builtinSpi (some lineData)) (lineOpts um .noRadius 0) (some lineObj) (failingWorld [5] at_))
        (scClustering sampleCfg (builtinSpi (some lineData)) (lineOpts um .noRadius 0) (some lineObj) (sampleWorld [5]))) := by
  obtain ⟨e, p, w', h1, h2⟩ := C67_methods_partial (m := .lexical) lineSpi_ok (press_call (line_call um .noRadius 0) at_) (line_call um .noRadius 0) (fun _ _ => rfl) rfl
    (line_accepts hum ⟨nofun, nofun⟩) line_small (by show 0 < 2; decide) lineA_determined nofun (by rintro (h | h) <;> cases h)
  refine ⟨e, p, w', h1, ?_⟩
  rcases h2 with h2 | h2 | ⟨p', v', -, -, h3⟩
  · exact Or.inl h2
  · exact Or.inr (Or.inl h2)
  · exact Or.inr (Or.inr (h3 ⟨nofun, nofun⟩))

/-- All cases occur: an error is reported before or after labels are written, or the failed allocation does no harm (the seed array is not shrunk). -/
example :
    pressResult (lineOpts .closestAssigned .noRadius 0) [] = some (.ok, 2, some [0, 0, 0, 1, 1, 1]) ∧
    pressResult (lineOpts .closestAssigned .noRadius 0) [103] = some (.distSearch, 0, none) ∧
    pressResult (lineOpts .closestAssigned .noRadius 0) [109] = some (.noMemory, 2, some [0, 0, -2 ^ 31, 1, 1, -2 ^ 31]) ∧
    pressResult (lineOpts .closestAssigned .noRadius 0) [107] = some (.ok, 2, some [0, 0, 0, 1, 1, 1]) := by
  refine ⟨?_, ?_, ?_, ?_⟩ <;> decide +kernel

/-- C67 is false for secondary points that are assigned by a search: when the request for memory 113 fails, the call returns "ok" and leaves the point 5 unassigned, which otherwise gets the label 1. -/
theorem C67_fails_secondary :
    pressResult seedOpts [] = some (.ok, 2, some [0, 0, 0, 1, 1, 1]) ∧ pressResult seedOpts [113] = some (.ok, 2, some [0, 0, 0, 1, 1, -2 ^ 31]) := by decide +kernel

/-- Batches. -/
example (at_ : List Nat) (um : UnassignedMethod) (hum : um = .ignore ∨ um = .anyNeighbor) (bs : Nat) :
    ∃ e p w', scClustering sampleCfg (builtinSpi (some lineData)) (batchOpts um bs) (some lineObj) (failingWorld [5] at_) = some ((e, p), w') ∧ (e = .noMemory ∨ e = .distSearch ∨
      SameClusters 6 (scClustering sampleCfg (builtinSpi (some lineData)) (batchOpts um bs) (some lineObj) (failingWorld [5] at_))
        (scClustering sampleCfg (builtinSpi (some lineData)) (batchOpts um bs) (some lineObj) (sampleWorld [5]))) :=
  C67_batches lineSpi_ok (press_call (batch_call um bs) at_) (batch_call um bs) (fun _ _ => rfl) rfl (batch_fits um bs) (batch_accepts bs (by rcases hum with rfl | rfl <;> decide)) hum lineA_determined

example : pressResult (batchOpts .anyNeighbor 4) [] = some (.ok, 2, some [0, 0, 0, 1, 1, 1]) ∧ pressResult (batchOpts .anyNeighbor 4) [106] = some (.distSearch, 0, some [0, 0, 0, 1, 1, -2 ^ 31]) ∧
    pressResult (batchOpts .anyNeighbor 4) [107] = some (.ok, 2, some [0, 0, 0, 1, 1, 1]) := by
  refine ⟨?_, ?_, ?_⟩ <;> decide +kernel

/-- The built-in back end reports failed allocations. Hierarchical clustering, statistics and copying fail in some processes and not in others. -/
example : (builtinSpi (some lineData)).Steady ∧
    ((List.range 13).map fun i => (hierarchical sampleCfg sampleEnv (builtinSpi (some lineData)) 2 false (some (hiObj 6 0 none)) (failingWorld [5] [100 + i])).map fun r => r.1.1) =
      [some .noMemory, some .noMemory, some .noMemory, some .noMemory, some .noMemory, some .noMemory, some .noMemory, some .noMemory, some .noMemory, some .distSearch, some .distSearch, some .ok, some .ok] ∧
    ((List.range 5).map fun i => (getStats sampleCfg (builtinSpi (some lineData)) (some (hiObj 6 2 (some ⟨7, Buf.ofList [0, 0, 1, 1, 1, 0]⟩))) true (failingWorld [5, 7] [100 + i])).map fun r => r.1.1) =
      [some .noMemory, some .noMemory, some .noMemory, some .noMemory, some .ok] ∧
    ((List.range 3).map fun i => (copyClustering sampleCfg (some (hiObj 6 2 (some ⟨7, Buf.ofList [0, 0, 1, 1, 1, 0]⟩))) true (failingWorld [5, 7] [100 + i])).map fun r => r.1.1) =
      [some .noMemory, some .noMemory, some .ok] :=
  ⟨builtin_steady _, by decide +kernel, by decide +kernel, by decide +kernel⟩

end Scc
