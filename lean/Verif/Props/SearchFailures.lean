/-
C39: what happens when the back end reports failure.
-/
import Verif.Proofs.WatchHi
import Verif.Proofs.RunOk
import Verif.Proofs.HiBuiltin

namespace Scc

variable {F : Type} [FloatOps F]

/-! ### C39: search failures are reported

The watched back end `spi.watched v` is the given one as long as the watched functions do not report failure, and stops the program as soon as one does. So "the run with `spi.watched v` has the same
outcome" says that no watched function reports failure in the run. Missing from C39: searches in the assignment of the secondary points, and closing a search object outside the construction of the
nearest neighbour digraph. There the claim is false, see `C39_fails_search`, `C39_fails_close` and `C39_fails_close_batches`. -/

/-- C39 for starting a search and computing distances (with no condition on the options), for searching (unless secondary points are assigned by search), and for closing a search (if searches are
only used to construct the digraph). If the call returns "ok", none of these functions has reported failure. -/
theorem C39_failures_reported_partial (cfg : Cfg) (spi : Spi F) (o : Options F) (p : Option ClObj) (v : Watch)
    (hs : v.search = true → o.secondaryMethod = .ignore ∨ o.seedMethod = .batches)
    (hc : v.close = true → (o.primaryMethod = .ignore ∨ o.primaryMethod = .anyNeighbor) ∧ o.secondaryMethod = .ignore ∧ o.seedMethod ≠ .batches)
    {w w' : World} {q : Option ClObj} (h : scClustering cfg spi o p w = some ((.ok, q), w')) :
    scClustering cfg (spi.watched v) o p w = some ((.ok, q), w') := by
  rcases tracks_scClustering cfg o p hs hc w _ h with h | h
  · exact h
  · exact absurd rfl h

/-- C39 for starting a search and computing distances: whatever the options, if one of these reports failure the call does not return "ok". -/
theorem C39_start_reported (cfg : Cfg) (spi : Spi F) (o : Options F) (p : Option ClObj) {w w' : World} {r : ErrorCode × Option ClObj} (h : scClustering cfg spi o p w = some (r, w'))
    (hstop : scClustering cfg (spi.watched ⟨true, false, false⟩) o p w = none) : r.1 ≠ .ok := by
  obtain ⟨e, q⟩ := r
  rintro rfl
  rw [C39_failures_reported_partial cfg spi o p ⟨true, false, false⟩ nofun nofun h] at hstop
  cases hstop

/-- C39 for hierarchical clustering: if `scc_hierarchical_clustering` returns "ok" then no function of the back end reported failure. -/
theorem C39_hierarchical_reported (cfg : Cfg) (hi : HiEnv F) (spi : Spi F) (S : Nat) (batch : Bool) (p : Option ClObj) (v : Watch) {w w' : World} {q : Option ClObj}
    (h : hierarchical cfg hi spi S batch p w = some ((.ok, q), w')) : hierarchical cfg hi (spi.watched v) S batch p w = some ((.ok, q), w') := by
  rcases tracks_hierarchical cfg hi S batch p w _ h with h | h
  · exact h
  · exact absurd rfl h

/-- C39 for statistics: if `scc_get_clustering_stats` returns "ok" then no function of the back end reported failure. -/
theorem C39_stats_reported (cfg : Cfg) (spi : Spi F) (p : Option ClObj) (hasOut : Bool) (v : Watch) {w w' : World} {s : Option (Stats F)}
    (h : getStats cfg spi p hasOut w = some ((.ok, s), w')) : getStats cfg (spi.watched v) p hasOut w = some ((.ok, s), w') := by
  rcases tracks_getStats cfg p hasOut w _ h with h | h
  · exact h
  · exact absurd rfl h

/-! ### Examples -/

/-- The back end that refuses some searches, depending on the number of neighbours, and reports failure after closing some search objects. -/
def Spi.refusing (spi : Spi F) (search : Nat → Bool) (close : spi.NN → Bool) : Spi F :=
  { spi with
    nnSearch := fun o lenQ q k rs r oq nn => if search k then pure none else spi.nnSearch o lenQ q k rs r oq nn
    nnClose := fun o => do
      let b ← spi.nnClose o
      pure (b && !close o) }

omit [FloatOps F] in
/-- A refusing back end works as documented. -/
def refusing_ok {spi : Spi F} {n : Nat} {A : Criterion F} {dist : Nat → Nat → F} (h : SpiOk spi n A dist False) (search : Nat → Bool) (close : spi.NN → Bool) :
    SpiOk (spi.refusing search close) n A dist True where
  isNN := h.isNN
  nnInit len arr L w h1 h2 h3 h4 h5 h6 := by
    obtain ⟨r, w', e1, e2, e3, e4⟩ := h.nnInit len arr L w h1 h2 h3 h4 h5 h6
    refine ⟨r, w', e1, e2, e3, ?_⟩
    cases r with
    | none => exact ⟨e4.1, Or.inr trivial⟩
    | some o => exact e4
  nnSearch o set own ids lenQ queries Q k rs radius oq nn w h1 h2 h3 := by
    show WpM (if search k then pure none else spi.nnSearch o lenQ queries k rs radius oq nn) w _
    by_cases hk : search k = true
    · rw [if_pos hk]
      exact ⟨none, w, rfl, rfl, rfl, rfl, Or.inr trivial⟩
    · rw [if_neg hk]
      obtain ⟨r, w', e1, e2, e3, e4, e5⟩ := h.nnSearch o set own ids lenQ queries Q k rs radius oq nn w h1 h2 h3
      refine ⟨r, w', e1, e2, e3, e4, ?_⟩
      cases r with
      | none => exact Or.inr trivial
      | some r => exact e5
  nnClose o set own ids w L h1 h2 := by
    obtain ⟨b, w', e1, e2, e3, e4, e5⟩ := h.nnClose o set own ids w L h1 h2
    exact ⟨b && !close o, w', bind_eq.2 ⟨b, w', e1, rfl⟩, e2, e3, e4, fun _ => Or.inr trivial⟩
  distRows lenQ queries Q lenC cols C out w h1 h2 h3 h4 h5 h6 h7 h8 h9 h10 h11 := by
    obtain ⟨r, w', e1, e2, e3, e4, e5⟩ := h.distRows lenQ queries Q lenC cols C out w h1 h2 h3 h4 h5 h6 h7 h8 h9 h10 h11
    refine ⟨r, w', e1, e2, e3, e4, ?_⟩
    cases r with
    | none => exact Or.inr trivial
    | some r => exact e5
  numPoints := h.numPoints

/-- The built-in search on the line, refusing to search for a single neighbour. -/
def noSingle : Spi Int := (builtinSpi (some lineData)).refusing (fun k => k == 1) fun _ => false

/-- The built-in search on the line, reporting failure after closing a search object for a list of points. -/
def noClose : Spi Int := (builtinSpi (some lineData)).refusing (fun _ => false) fun (o : SearchObj) => o.search.isSome

/-- The built-in search on the line, reporting failure after closing any search object. -/
def neverClose : Spi Int := (builtinSpi (some lineData)).refusing (fun _ => false) fun _ => true

/-- The code of a call on the six points of the line, if it has an outcome. -/
def lineCode (spi : Spi Int) (o : Options Int) : Option ErrorCode := (scClustering sampleCfg spi o (some lineObj) (sampleWorld [5])).map fun r => r.1.1

/-- Points 0, 2 and 3 are primary, other points join the closest seed. -/
def seedOpts : Options Int :=
  { (defaultOptions : Options Int) with sizeConstraint := 2, lenPrimary := 3, primary := some (Buf.ofList [0, 2, 3]), secondaryMethod := .closestSeed, secondaryRadius := .noRadius }

/-- C39 is false for the assignment of secondary points: there is a back end that works as documented, a valid call that returns "ok", and a search in it that reports failure. -/
theorem C39_fails_search : (∃ A dist, Nonempty (SpiOk noSingle 6 A dist True)) ∧ lineCode noSingle seedOpts = some .ok ∧ lineCode (noSingle.watched ⟨false, true, false⟩) seedOpts = none :=
  ⟨⟨_, _, ⟨refusing_ok lineSpi_ok _ _⟩⟩, by decide +kernel, by decide +kernel⟩

/-- C39 is false for closing a search object that is used to assign points. -/
theorem C39_fails_close : (∃ A dist, Nonempty (SpiOk noClose 6 A dist True)) ∧ lineCode noClose (lineOpts .closestSeed .noRadius 0) = some .ok ∧
    lineCode (noClose.watched ⟨false, false, true⟩) (lineOpts .closestSeed .noRadius 0) = none :=
  ⟨⟨_, _, ⟨refusing_ok lineSpi_ok _ _⟩⟩, by decide +kernel, by decide +kernel⟩

/-- C39 is false for closing the search object in batch clustering. -/
theorem C39_fails_close_batches : (∃ A dist, Nonempty (SpiOk neverClose 6 A dist True)) ∧
    lineCode neverClose { lineOpts .ignore .useSeedRadius 0 with seedMethod := .batches, batchSize := 4 } = some .ok ∧
    lineCode (neverClose.watched ⟨false, false, true⟩) { lineOpts .ignore .useSeedRadius 0 with seedMethod := .batches, batchSize := 4 } = none :=
  ⟨⟨_, _, ⟨refusing_ok lineSpi_ok _ _⟩⟩, by decide +kernel, by decide +kernel⟩

/-- The conditions on the options are met by calls that return "ok" and by calls in which a watched function reports failure: a search for the primary points, a search for the digraph, closing the
search for the digraph, and a search in batch clustering. -/
example :
    lineCode (builtinSpi (some lineData)) (lineOpts .closestSeed .noRadius 0) = some .ok ∧
    lineCode ((builtinSpi (some lineData)).watched ⟨true, true, false⟩) (lineOpts .closestSeed .noRadius 0) = some .ok ∧
    lineCode noSingle (lineOpts .closestSeed .noRadius 0) = some .distSearch ∧
    lineCode (noSingle.watched ⟨true, true, false⟩) (lineOpts .closestSeed .noRadius 0) = none ∧
    lineCode neverClose (lineOpts .anyNeighbor .noRadius 0) = some .distSearch ∧
    lineCode (neverClose.watched ⟨true, true, true⟩) (lineOpts .anyNeighbor .noRadius 0) = none ∧
    lineCode ((builtinSpi (some lineData)).refusing (fun k => k == 2) fun _ => false) { lineOpts .ignore .useSeedRadius 0 with seedMethod := .batches, batchSize := 4 } = some .distSearch := by
  refine ⟨?_, ?_, ?_, ?_, ?_, ?_, ?_⟩ <;> decide +kernel

/-- The back end that reports failure of some functions that hierarchical clustering and statistics use. -/
def Spi.refusingMax (spi : Spi F) (matrix search close : Bool) : Spi F :=
  { spi with
    distMatrix := fun len a out => if matrix then pure none else spi.distMatrix len a out
    maxDist := fun o lenQ q outI outD => if search then pure none else spi.maxDist o lenQ q outI outD
    maxClose := fun o => do
      let b ← spi.maxClose o
      pure (b && !close) }

/-- The error codes of a call of `scc_hierarchical_clustering` for the six points, and of a call of `scc_get_clustering_stats` for two clusters of them. -/
def hiCode (spi : Spi Int) : Option ErrorCode := (hierarchical sampleCfg sampleEnv spi 2 false (some (hiObj 6 0 none)) (sampleWorld [5])).map fun r => r.1.1

def statsCode (spi : Spi Int) : Option ErrorCode :=
  (getStats sampleCfg spi (some (hiObj 6 2 (some ⟨7, Buf.ofList [0, 0, 1, 1, 1, 0]⟩))) true (sampleWorld [5, 7])).map fun r => r.1.1

/-- The theorems apply to calls that return "ok", and calls in which a function reports failure return an error. -/
example :
    hiCode (builtinSpi (some lineData)) = some .ok ∧ hiCode ((builtinSpi (some lineData)).watched ⟨true, true, true⟩) = some .ok ∧
    hiCode ((builtinSpi (some lineData)).refusingMax false true false) = some .distSearch ∧
    hiCode (((builtinSpi (some lineData)).refusingMax false true false).watched ⟨false, true, false⟩) = none ∧
    hiCode ((builtinSpi (some lineData)).refusingMax false false true) = some .distSearch ∧
    hiCode (((builtinSpi (some lineData)).refusingMax false false true).watched ⟨false, false, true⟩) = none ∧
    statsCode (builtinSpi (some lineData)) = some .ok ∧ statsCode ((builtinSpi (some lineData)).watched ⟨true, true, true⟩) = some .ok ∧
    statsCode ((builtinSpi (some lineData)).refusingMax true false false) = some .distSearch ∧
    statsCode (((builtinSpi (some lineData)).refusingMax true false false).watched ⟨true, false, false⟩) = none := by
  refine ⟨?_, ?_, ?_, ?_, ?_, ?_, ?_, ?_, ?_, ?_⟩ <;> decide +kernel

end Scc
