/-
Property C69: a library built with `--enable-assert` does not abort and returns the same results as one built without.

The functions with names that end in `Dbg` (Model/Assert*.lean) are the functions of the model with the assertions of the C code in their places; a false assertion ends the program, which is
the outcome `none`. The theorems say that the calls with and without assertions are equal. That the calls without assertions return (their outcome is not `none`) is stated in C17
and the other properties about undefined behaviour.
-/
import Verif.Proofs.AssertHi
import Verif.Proofs.AssertCall
import Verif.Props.Hierarchical
import Verif.Props.Clustering
import Verif.Proofs.BatchOk

set_option linter.unusedVariables false

namespace Scc

variable {F : Type} [FloatOps F]

theorem WellSpread.start {S : Nat} {dist : Nat → Nat → F} {cl : Clustering} (h : WellSpread S dist cl) : ∀ O ∈ startClusters cl, Spread S dist O := by
  intro O hO
  unfold startClusters at hO
  split at hO
  · rename_i hk
    rw [List.mem_singleton] at hO
    subst hO
    exact h.1 hk
  · obtain ⟨e, he, rfl⟩ := List.mem_map.1 hO
    obtain ⟨c, hc, rfl⟩ := mem_oldStack.1 he
    intro x hx
    have := h.2 c hc x (by simpa [oldEntry] using hx)
    simpa [oldEntry, List.filter_reverse] using this

/-- C69 for `scc_hierarchical_clustering`, without the case of many coincident points (for which it is false, see `C69_hierarchical_fails`): with assertions the call returns, with the
same error code, clustering and state of memory as without, for all inputs that satisfy the preconditions and all failures of allocations and of the back end.
Missing: clusters in which `2 * S` or more points coincide; inputs for which the call has undefined behaviour (`C17_fails`). -/
theorem C69_hierarchical_partial {cfg : Cfg} {dist : Nat → Nat → F} {hi : HiEnv F} (hhi : hi.Ok) {spi : Spi F} {mayRefuse : Prop} {S : Nat} {ob : ClObj} (hd : DistLaws ob.cl.n dist)
    (hs : MetricOk spi ob.cl.n dist mayRefuse) (batch : Bool) {w : World} (hc : HiCallOk cfg S ob w) (hsp : WellSpread S dist ob.cl) :
    hierarchicalDbg cfg hi spi S batch (some ob) w = hierarchical cfg hi spi S batch (some ob) w ∧ ∃ r w', hierarchicalDbg cfg hi spi S batch (some ob) w = some (r, w') := by
  have h := hierarchicalDbg_eq hhi hd hs batch hc hsp.start
  refine ⟨h, ?_⟩
  obtain ⟨e, cl, w', h1, -⟩ := C17_partial hhi hd hs batch hc
  exact ⟨_, w', h.trans h1⟩

/-- A clustering with a large cluster that is broken up. -/
example : HiCallOk sampleCfg 2 (hiObj 9 3 (some ⟨6, nineLabels⟩)) (sampleWorld [5, 6]) ∧ WellSpread 2 nineData.dist (hiObj 9 3 (some ⟨6, nineLabels⟩)).cl ∧
    hiSummary (hierarchicalDbg sampleCfg sampleEnv (builtinSpi (some nineData)) 2 false (some (hiObj 9 3 (some ⟨6, nineLabels⟩))) (sampleWorld [5, 6])) =
      some (.ok, 4, [some 3, some 3, some 1, some 1, some 0, some 2, some 2, some 2, some sampleCfg.na]) :=
  ⟨hiCallOk_nine, ⟨fun h => absurd h (by decide), by unfold Spread; decide +kernel⟩, by decide +kernel⟩

/-- C69 is false when points coincide: four copies of a point are to be divided into clusters of two. The two centers of the first division are the same point, and the assertion
that they differ (src/hierarchical_clustering.c:812) ends the program. Without assertions the call returns "ok" (and a point is lost, see `C15_fails`). -/
theorem C69_hierarchical_fails : HiCallOk sampleCfg 2 (hiObj 4 0 none) (sampleWorld [5]) ∧
    hiSummary (hierarchical sampleCfg sampleEnv (builtinSpi (some copiesData)) 2 false (some (hiObj 4 0 none)) (sampleWorld [5])) = some (.ok, 2, [some 1, some 1, some 0, none]) ∧
    hierarchicalDbg sampleCfg sampleEnv (builtinSpi (some copiesData)) 2 false (some (hiObj 4 0 none)) (sampleWorld [5]) = none := by
  have h : (hierarchicalDbg sampleCfg sampleEnv (builtinSpi (some copiesData)) 2 false (some (hiObj 4 0 none)) (sampleWorld [5])).isNone = true := by decide +kernel
  exact ⟨C15_fails.1, C15_fails.2.1, Option.isNone_iff_eq_none.1 h⟩

/-- C69 for `scc_sc_clustering` (all seed methods, with and without type constraints, and batches), without radii that are not numbers (for which it is false, see `C69_clustering_fails`):
with assertions the call returns, with the same error code, clustering and state of memory as without, for all inputs that satisfy the preconditions and all failures of allocations and of
the back end. Missing: radii that are NaN; inputs for which the call has undefined behaviour (outside of `CallOk` and, for batches, `BatchFits`). -/
theorem C69_clustering_partial {cfg : Cfg} {spi : Spi F} {A : Criterion F} {dist : Nat → Nat → F} {mayRefuse : Prop} {o : Options F} {ob : ClObj}
    (hs : SpiOk spi ob.cl.n A dist mayRefuse) {P : List Nat} {lab c : Nat → Nat} {w : World} (hc : CallOk cfg o ob P lab c w) (hpr : PositiveRadii o)
    (hfit : o.seedMethod = .batches → BatchFits o ob.cl.n) :
    scClusteringDbg cfg spi o (some ob) w = scClustering cfg spi o (some ob) w ∧ ∃ r w', scClusteringDbg cfg spi o (some ob) w = some (r, w') := by
  have h := scClusteringDbg_eq hs hc hpr hfit
  refine ⟨h, ?_⟩
  rw [h]
  cases hm : o.seedMethod with
  | batches =>
    obtain ⟨r, w', h1, -⟩ := scBatches_spec hs hc hm (hfit hm)
    exact ⟨r, w', h1⟩
  | method m =>
    obtain ⟨r, w', h1, -⟩ := scClustering_spec hs hc hm
    exact ⟨r, w', h1⟩
  | unknown =>
    obtain ⟨r, w', h1, -⟩ := scClustering_checks (Q := fun _ _ => True) (spi := spi) (Multiset.mem_of_le hc.live (by simp)) hc.arrays (fun _ _ _ => trivial) fun hacc => absurd hm hacc.options.seed
    exact ⟨r, w', h1⟩

/-- Options with a seed radius, an estimated radius for the primary points and a supplied radius for the secondary points. -/
def radiiOpts : Options Int :=
  { (defaultOptions : Options Int) with
    sizeConstraint := 2, seedRadius := .useSupplied, seedSupplied := 4, primaryMethod := .closestSeed, primaryRadius := .useEstimated, secondaryMethod := .closestAssigned,
    secondaryRadius := .useSupplied, secondarySupplied := 12 }

theorem radii_call : CallOk sampleCfg radiiOpts lineObj (List.range 6) (fun _ => 0) (fun _ => 0) (sampleWorld [5]) :=
  line_callOk ⟨fun _ => rfl, nofun, fun x hx => List.mem_range.1 hx, nofun, nofun⟩ ⟨by show 6 * 2 ≤ 2 ^ 64 - 1; decide, fun h => by simp [radiiOpts, defaultOptions] at h⟩

/-- A call in which every stage is used. -/
example : CallOk sampleCfg radiiOpts lineObj (List.range 6) (fun _ => 0) (fun _ => 0) (sampleWorld [5]) ∧ PositiveRadii radiiOpts ∧
    hiSummary (scClusteringDbg sampleCfg (builtinSpi (some lineData)) radiiOpts (some lineObj) (sampleWorld [5])) = some (.ok, 2, [some 0, some 0, some 0, some 1, some 1, some 1]) :=
  ⟨radii_call, ⟨fun _ => by decide, nofun, fun _ => by decide⟩, by decide +kernel⟩

/-- Batches. -/
example : CallOk sampleCfg (batchOpts .anyNeighbor 3) lineObj (List.range 6) (fun _ => 0) (fun _ => 0) (sampleWorld [5]) ∧ PositiveRadii (batchOpts .anyNeighbor 3) ∧ BatchFits (batchOpts .anyNeighbor 3) 6 ∧
    hiSummary (scClusteringDbg sampleCfg (builtinSpi (some lineData)) (batchOpts .anyNeighbor 3) (some lineObj) (sampleWorld [5])) =
      some (.ok, 2, [some 0, some 0, some 0, some 1, some 1, some 1]) :=
  ⟨batch_call _ _, ⟨nofun, nofun, nofun⟩, batch_fits _ _, by decide +kernel⟩

/-- Integers and a NaN (`none`), with the laws of IEEE comparisons. -/
instance nanOps : FloatOps (Option Int) where
  zero := some 0
  negOne := some (-1)
  dblMax := some (2 ^ 1023)
  add a b := a.bind fun a => b.map fun b => a + b
  sub a b := a.bind fun a => b.map fun b => a - b
  mul a b := a.bind fun a => b.map fun b => a * b
  div a b := a.bind fun a => b.bind fun b => if b = 0 then none else some (a / b)
  sqrt a := a.bind fun a => if a < 0 then none else some (Nat.sqrt a.toNat : Int)
  ofNat n := some n
  lt a b := match a, b with | some a, some b => decide (a < b) | _, _ => false
  le a b := match a, b with | some a, some b => decide (a ≤ b) | _, _ => false

theorem nanLaws : FloatLaws (Option Int) where
  total a b h1 h2 := by
    cases a <;> cases b <;> simp_all [IsNum, FloatOps.le]
    omega
  trans a b c h1 h2 := by
    cases a <;> cases b <;> cases c <;> simp_all [FloatOps.le]
    omega
  lt_iff a b h1 h2 := by cases a <;> cases b <;> simp_all [IsNum, FloatOps.le, FloatOps.lt]
  nan_lt a b h := by cases a <;> cases b <;> simp_all [IsNum, FloatOps.le, FloatOps.lt]

/-- The six points on a line. -/
def nanLine : DataSet (Option Int) := ⟨dataSetVersion, 6, 1, some (Buf.ofList [some 0, some 1, some 3, some 7, some 8, some 20])⟩

/-- Options with a seed radius that is a NaN. -/
def nanOpts : Options (Option Int) := { (defaultOptions : Options (Option Int)) with sizeConstraint := 2, seedRadius := .useSupplied, seedSupplied := none }

/-- C69 is false when a supplied radius is a NaN: the options are accepted, and the assertion that the radius is positive (src/nng_core.c:139) ends the program. Without assertions the call
returns "ok", and the radius has no effect. -/
theorem C69_clustering_fails : CallOk sampleCfg nanOpts lineObj (List.range 6) (fun _ => 0) (fun _ => 0) (sampleWorld [5]) ∧
    Accepts sampleCfg (builtinSpi (some nanLine)).valid (builtinSpi (some nanLine)).numPoints nanOpts lineObj.cl (List.range 6) ∧
    Nonempty (SpiOk (builtinSpi (some nanLine)) 6 (fun set k radius q a => a = nnAnswer (nanLine.sqd q) set k radius) nanLine.dist False) ∧
    hiSummary (scClustering sampleCfg (builtinSpi (some nanLine)) nanOpts (some lineObj) (sampleWorld [5])) = 
      some (.ok, 2, [some 0, some 0, some 0, some 1, some 1, some 1]) ∧
    scClusteringDbg sampleCfg (builtinSpi (some nanLine)) nanOpts (some lineObj) (sampleWorld [5]) = none := by
  have h : (scClusteringDbg sampleCfg (builtinSpi (some nanLine)) nanOpts (some lineObj) (sampleWorld [5])).isNone = true := by decide +kernel
  refine ⟨?_, ?_, ⟨builtinSpi_ok nanLine ?_⟩, by decide +kernel, Option.isNone_iff_eq_none.1 h⟩
  · exact ⟨sampleCfg_valid, by simp [lineObj, sampleWorld, ptrOwn, ptrIds], nofun, ⟨fun _ => rfl, nofun, fun x hx => List.mem_range.1 hx, nofun, nofun⟩,
      fun _ => ⟨by show 6 * 2 ≤ 2 ^ 64 - 1; decide, fun h => by simp [nanOpts, defaultOptions] at h⟩, fun _ => rfl⟩
  · exact ⟨by decide, by decide, by decide, ⟨rfl, le_refl 2, by show 2 ≤ 6; decide, Or.inl ⟨by show 0 < 2; decide, rfl, rfl, rfl⟩, nofun, Or.inl ⟨rfl, rfl⟩, nofun, Or.inl rfl,
      ⟨Or.inr rfl, nofun, fun _ => rfl⟩, ⟨nofun, nofun⟩, ⟨nofun, nofun⟩, nofun⟩, rfl⟩
  · have h6 : ∀ i, i < 6 → (nanLine.buf.get i).isSome = true := by decide
    exact fun i hi => Option.isSome_iff_exists.1 (h6 i hi)

end Scc
