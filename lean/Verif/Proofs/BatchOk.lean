/-
Batches with a deterministic search: the result is that of the sequential algorithm. A concrete run for the examples.
-/
import Verif.Proofs.BatchCall
import Verif.Proofs.RunOk

set_option linter.unusedSimpArgs false
set_option linter.unusedVariables false

namespace Scc

variable {F : Type} [FloatOps F]

/-- The result of a call with batches when the answers are a function of the query. -/
inductive SeqResult (cfg : Cfg) (n id : Nat) (st : SeqState) : ErrorCode × Option ClObj → Prop
  | ok (cl : Clustering) (b : Blk Int) (pos : 0 < st.clusters.length) (cap : st.clusters.length ≤ cfg.clabelMax) (count : cl.numClusters = st.clusters.length) (label : cl.label = some b)
      (points : cl.n = n) (labels : LabelsAre cfg n b.buf st.label) : SeqResult cfg n id st (.ok, some ⟨id, cl⟩)
  | tooLarge (p : Option ClObj) (big : cfg.clabelMax < st.clusters.length) : SeqResult cfg n id st (.tooLarge, p)
  | noSeeds (cl : Clustering) (b : Blk Int) (none : st.clusters = []) (count : cl.numClusters = 0) (label : cl.label = some b) (labels : LabelsAre cfg n b.buf st.label) :
      SeqResult cfg n id st (.noSolution, some ⟨id, cl⟩)

theorem BatchRun.functional {cfg : Cfg} {A : Criterion F} {n : Nat} {o : Options F} {P : List Nat} {evs : List (Nat × Option (List Nat))} (h : BatchRun cfg A n o P evs) {g : Nat → Option (List Nat)}
    (hg : ∀ q a, A (List.range n) o.sizeConstraint (seedLimit o) q a → a.map (stored cfg) = g q) : batchResult o evs = seqRun (decide (o.primaryMethod = .ignore)) (P.map fun q => (q, g q)) := by
  rw [← h.order]
  exact seqRun_functional fun pre e post he => (h.good pre e post he).imp id fun h => by
    obtain ⟨a₀, h1, h2⟩ := h.1
    rw [h2, hg _ _ h1]

/-- Whatever allocations fail: the result of the sequential algorithm, or lack of memory or a failed search is reported. -/
theorem scBatches_determined_any {cfg : Cfg} {spi : Spi F} {A : Criterion F} {dist : Nat → Nat → F} {o : Options F} {ob : ClObj}
    (hs : SpiOk spi ob.cl.n A dist False) {P : List Nat} {lab c : Nat → Nat} {w : World} (hc : CallOk cfg o ob P lab c w) (hm : o.seedMethod = .batches) (hfit : BatchFits o ob.cl.n)
    (hacc : Accepts cfg spi.valid spi.numPoints o ob.cl P) (hum : o.primaryMethod = .ignore ∨ o.primaryMethod = .anyNeighbor) {g : Nat → Option (List Nat)}
    (hg : ∀ q a, A (List.range ob.cl.n) o.sizeConstraint (seedLimit o) q a → a.map (stored cfg) = g q) :
    ∃ r w', scClustering cfg spi o (some ob) w = some (r, w') ∧ (SeqResult cfg ob.cl.n ob.id (seqRun (decide (o.primaryMethod = .ignore)) (P.map fun q => (q, g q))) r ∨
      ¬ w.NoFail ∧ (r.1 = .noMemory ∨ r.1 = .distSearch)) := by
  obtain ⟨⟨e, p⟩, w', h1, h2⟩ := scBatches_spec hs hc hm hfit
  refine ⟨_, w', h1, ?_⟩
  rcases h2 with h2 | ⟨-, -, ⟨⟨h2, h3⟩, -⟩ | ⟨-, M, cl', hlive, hp, h2⟩⟩
  · exact absurd hacc fun h => h2.cause.not_accepts h
  · rcases hum with h | h
    · exact absurd h h2
    · exact absurd h h3
  · dsimp only at hp
    subst hp
    cases h2 with
    | done _ _ evs id l run count pos cap labels labelled live =>
      rw [run.functional hg] at count labels
      exact Or.inl (.ok cl' ⟨id, l⟩ (by rw [← count]; exact pos) (by rw [← count]; exact cap) count (by rw [labelled.eq]) (by rw [labelled.eq]) labels)
    | failed _ _ _ cause err after =>
      rcases cause with ⟨rfl, evs, rest, run, hpre, hbig⟩ | ⟨rfl, h⟩ | ⟨rfl, h⟩
      · refine Or.inl (.tooLarge _ (lt_of_lt_of_le hbig ?_))
        rw [run.functional hg, ← hpre, List.map_append, seqRun_append]
        exact length_clusters_foldl _ _ _
      · exact Or.inr ⟨h, Or.inl rfl⟩
      · exact Or.inr ⟨h.resolve_right id, Or.inr rfl⟩
    | noSeeds _ _ evs id l run none err labels labelled live =>
      rw [run.functional hg] at none labels
      exact Or.inl (.noSeeds cl' ⟨id, l⟩ none (by rw [labelled.eq]) (by rw [labelled.eq]) labels)

theorem scBatches_determined {cfg : Cfg} {spi : Spi F} {A : Criterion F} {dist : Nat → Nat → F} {o : Options F} {ob : ClObj}
    (hs : SpiOk spi ob.cl.n A dist False) {P : List Nat} {lab c : Nat → Nat} {w : World} (hc : CallOk cfg o ob P lab c w) (hm : o.seedMethod = .batches) (hfit : BatchFits o ob.cl.n)
    (hacc : Accepts cfg spi.valid spi.numPoints o ob.cl P) (hum : o.primaryMethod = .ignore ∨ o.primaryMethod = .anyNeighbor) (hw : w.NoFail) {g : Nat → Option (List Nat)}
    (hg : ∀ q a, A (List.range ob.cl.n) o.sizeConstraint (seedLimit o) q a → a.map (stored cfg) = g q) :
    ∃ r w', scClustering cfg spi o (some ob) w = some (r, w') ∧ SeqResult cfg ob.cl.n ob.id (seqRun (decide (o.primaryMethod = .ignore)) (P.map fun q => (q, g q))) r := by
  obtain ⟨r, w', h1, h2⟩ := scBatches_determined_any hs hc hm hfit hacc hum hg
  exact ⟨r, w', h1, h2.resolve_right fun h => h.1 hw⟩

theorem scBatches_functional {cfg : Cfg} {spi : Spi F} {A : Criterion F} {dist : Nat → Nat → F} {o : Options F} {ob : ClObj}
    (hs : SpiOk spi ob.cl.n A dist False) {P : List Nat} {lab c : Nat → Nat} {w : World} (hc : CallOk cfg o ob P lab c w) (hm : o.seedMethod = .batches) (hfit : BatchFits o ob.cl.n)
    (hacc : Accepts cfg spi.valid spi.numPoints o ob.cl P) (hum : o.primaryMethod = .ignore ∨ o.primaryMethod = .anyNeighbor) (hw : w.NoFail) {f : Nat → Option (List Nat)}
    (hf : ∀ q a, A (List.range ob.cl.n) o.sizeConstraint (seedLimit o) q a → a = f q) :
    ∃ r w', scClustering cfg spi o (some ob) w = some (r, w') ∧ SeqResult cfg ob.cl.n ob.id (seqRun (decide (o.primaryMethod = .ignore)) (P.map fun q => (q, (f q).map (stored cfg)))) r :=
  scBatches_determined hs hc hm hfit hacc hum hw (g := fun q => (f q).map (stored cfg)) fun q a h => by rw [hf q a h]

/-! ### A concrete run -/

/-- Options for batches of `bs` points on the line. -/
def batchOpts (um : UnassignedMethod) (bs : Nat) : Options Int :=
  { (defaultOptions : Options Int) with sizeConstraint := 2, seedMethod := .batches, primaryMethod := um, batchSize := bs }

theorem batch_call (um : UnassignedMethod) (bs : Nat) : CallOk sampleCfg (batchOpts um bs) lineObj (List.range 6) (fun _ => 0) (fun _ => 0) (sampleWorld [5]) :=
  line_callOk ⟨fun _ => rfl, nofun, fun x hx => List.mem_range.1 hx, nofun, nofun⟩ ⟨by show 6 * 2 ≤ 2 ^ 64 - 1; decide, fun h => by simp [batchOpts, defaultOptions] at h⟩

theorem batch_fits (um : UnassignedMethod) (bs : Nat) : BatchFits (batchOpts um bs) 6 := by
  show 2 * (if bs = 0 then 6 else min bs 6) < 2 ^ 32
  split <;> omega

theorem batch_accepts {um : UnassignedMethod} (bs : Nat) (h : um ≠ .unknown) :
    Accepts sampleCfg (builtinSpi (some lineData)).valid (builtinSpi (some lineData)).numPoints (batchOpts um bs) lineObj.cl (List.range 6) where
  initialized := by decide
  valid := by decide
  points := by decide
  options := ⟨rfl, le_refl 2, by show 2 ≤ 6; decide, Or.inl ⟨by show 0 < 2; decide, rfl, rfl, rfl⟩, nofun, Or.inl ⟨rfl, rfl⟩, h, Or.inl rfl, ⟨Or.inl rfl, nofun, nofun⟩, ⟨nofun, nofun⟩,
    ⟨nofun, nofun⟩, fun _ => ⟨by show 0 < 2; decide, rfl, rfl⟩⟩
  empty := rfl

/-- Batches of any size give the clusters {0, 1} and {3, 4}; the points 2 and 5 join them or are ignored. -/
theorem batch_run (um : UnassignedMethod) (hum : um = .ignore ∨ um = .anyNeighbor) (bs : Nat) :
    ∃ cl b w', scClustering sampleCfg (builtinSpi (some lineData)) (batchOpts um bs) (some lineObj) (sampleWorld [5]) = some ((.ok, some ⟨5, cl⟩), w') ∧
      cl.numClusters = 2 ∧ cl.label = some b ∧
      b.buf.read 6 = some (if um = .ignore then [0, 0, -2 ^ 31, 1, 1, -2 ^ 31] else [0, 0, 0, 1, 1, 1]) := by
  obtain ⟨r, w', h1, h2⟩ := scBatches_functional (f := fun q => nnAnswer (lineData.sqd q) (List.range 6) 2 none) lineSpi_ok (batch_call um bs) rfl (batch_fits um bs)
    (batch_accepts bs (by rcases hum with rfl | rfl <;> decide)) hum (fun _ _ => rfl) (fun q a h => h)
  simp only [map_stored_off (cfg := sampleCfg) rfl] at h2
  have hst : ∀ ig, (seqRun ig ((List.range 6).map fun q => (q, nnAnswer (lineData.sqd q) (List.range 6) 2 none))).clusters = [[0, 1], [3, 4]] ∧
      (List.range 6).map (seqRun ig ((List.range 6).map fun q => (q, nnAnswer (lineData.sqd q) (List.range 6) 2 none))).label =
        if ig then [some 0, some 0, none, some 1, some 1, none] else [some 0, some 0, some 0, some 1, some 1, some 1] := by decide +kernel
  have hcl : ∀ ig, (seqRun ig ((List.range 6).map fun q => (q, nnAnswer (lineData.sqd q) (List.range 6) 2 none))).clusters.length = 2 := fun ig => by rw [(hst ig).1]; rfl
  cases h2 with
  | ok cl b pos cap count label points labels =>
    refine ⟨cl, b, w', h1, by rw [count]; exact hcl _, label, ?_⟩
    have h3 := (hst (decide (um = .ignore))).2
    rw [Buf.read_eq_some]
    have hlab : ∀ v, v < 6 → (seqRun (decide (um = .ignore)) ((List.range 6).map fun q => (q, nnAnswer (lineData.sqd q) (List.range 6) 2 none))).label v =
        (if um = .ignore then [some 0, some 0, none, some 1, some 1, none] else [some 0, some 0, some 0, some 1, some 1, some 1]).getD v none := by
      intro v hv
      simp only [decide_eq_true_eq] at h3
      rw [← h3]
      simp [hv]
    refine ⟨by split <;> rfl, fun v hv => ?_⟩
    rw [labels v hv]
    show some (encLabel sampleCfg ((seqRun (decide (um = .ignore)) _).label v)) = _
    rw [hlab v hv]
    clear hlab h3 hst hcl
    rcases hum with rfl | rfl <;> (revert v; decide)
  | tooLarge p big =>
    have := hcl (decide ((batchOpts um bs).primaryMethod = .ignore))
    exact absurd big (by show ¬ 2 ^ 31 - 1 < (seqRun _ ((List.range 6).map _)).clusters.length; rw [this]; decide)
  | noSeeds cl b none count label labels =>
    have := hcl (decide ((batchOpts um bs).primaryMethod = .ignore))
    exact absurd (congrArg List.length none) (by show (seqRun _ ((List.range 6).map _)).clusters.length ≠ 0; rw [this]; decide)

end Scc
