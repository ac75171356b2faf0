/-
Property C62: what the build flag `SCC_STABLE_FINDSEED` gives (src/nng_findseeds.c:686-699, 730-752).

`cfg.stableSeeds` says whether the flag is defined. `SameArcs n rows rows'` says that each vertex has the same out-neighbours, each as often, in both
digraphs; the order in which they are stored may differ.
-/
import Verif.Proofs.SeedsUnique
import Verif.Props.Seeds

set_option linter.unusedVariables false

namespace Scc

/-- C62. The seeds depend only on which arcs exist, not on the order in which they are stored, nor on the capacity, the memory or the limits of the build:
always for the lexical method and the methods without updating, and for the updating methods when both builds have `SCC_STABLE_FINDSEED`. -/
theorem C62_seeds_from_arcs {cfg cfg' : Cfg} {d d' : Digraph} {rows rows' : Nat → List Nat} {m : SeedMethod} {w w1 v v1 : World} {sr sr' : SeedResult} {cap cap' : Nat} {S S' : List Nat}
    (h : SeedInput cfg d rows m w) (h' : SeedInput cfg' d' rows' m v) (hn : d.n = d'.n) (hsame : SameArcs d.n rows rows')
    (hstable : m = .inwardsUpdating ∨ m = .exclusionUpdating → cfg.stableSeeds = true ∧ cfg'.stableSeeds = true)
    (hrun : findSeeds cfg d m cap w = some (.ok sr, w1)) (hrun' : findSeeds cfg' d' m cap' v = some (.ok sr', v1)) (hS : sr.Holds S) (hS' : sr'.Holds S') :
    S = S' := by
  have key : ∀ {cfg : Cfg} {d : Digraph} {rows : Nat → List Nat} {w w1 : World} {sr : SeedResult} {cap : Nat} {S : List Nat}, SeedInput cfg d rows m w →
      (m = .inwardsUpdating ∨ m = .exclusionUpdating → cfg.stableSeeds = true) → findSeeds cfg d m cap w = some (.ok sr, w1) → sr.Holds S →
      ∃ o : List Nat, o.Perm (List.range d.n) ∧ StableOrder m rows d.n o ∧ S = greedySeeds rows o := by
    intro cfg d rows w w1 sr cap S h hst hrun hS
    obtain ⟨r, w2, h1, h2⟩ := findSeeds_order_spec m cap h.repr h.simple h.live h.second
    rw [hrun] at h1
    cases h1
    obtain ⟨o, h3, h4, h5⟩ := h2
    refine ⟨o, h4, ?_, hS.unique h5.holds⟩
    cases m with
    | inwardsUpdating => exact h3.2 (hst (Or.inl rfl))
    | exclusionUpdating => exact h3.2 (hst (Or.inr rfl))
    | lexical => exact h3.1
    | inwardsOrder => exact h3.1
    | exclusionOrder => exact h3.1
  obtain ⟨o, p, ho, e⟩ := key h (fun hm => (hstable hm).1) hrun hS
  obtain ⟨o', p', ho', e'⟩ := key h' (fun hm => (hstable hm).2) hrun' hS'
  rw [← hn] at p' ho'
  rw [e, e', hsame.greedy (fun x hx => by simpa using p.mem_iff.1 hx)]
  exact stableOrder_unique p p' (hsame.stableOrder p ho) ho'

/-- The configuration of the examples, built with `SCC_STABLE_FINDSEED`. -/
def stableCfg : Cfg := { sampleCfg with stableSeeds := true }

/-- C62, the order itself: in a build with `SCC_STABLE_FINDSEED`, ties between vertices are broken by index. -/
theorem C62_ties_by_index {cfg : Cfg} {d : Digraph} {rows : Nat → List Nat} {m : SeedMethod} {w w' : World} {sr : SeedResult} {cap : Nat} {S : List Nat}
    (h : SeedInput cfg d rows m w) (hst : cfg.stableSeeds = true) (hrun : findSeeds cfg d m cap w = some (.ok sr, w')) (hS : sr.Holds S) :
    ∃ order : List Nat, order.Perm (List.range d.n) ∧ StableOrder m rows d.n order ∧ S = greedySeeds rows order := by
  obtain ⟨r, w1, h1, h2⟩ := findSeeds_order_spec m cap h.repr h.simple h.live h.second
  rw [hrun] at h1
  cases h1
  obtain ⟨o, h3, h4, h5⟩ := h2
  exact ⟨o, h4, h3.2 hst, hS.unique h5.holds⟩

/-- Four vertices; the second has three arcs, which are stored in ascending order here and in descending order in `arcsDown`. -/
def arcsUp : List (List Nat) := [[1], [0, 2, 3], [3], [2]]

/-- The arcs of `arcsUp` stored in another order. -/
def arcsDown : List (List Nat) := [[1], [3, 2, 0], [3], [2]]

/-- The seeds found by a method in a build. -/
def foundSeeds (cfg : Cfg) (m : SeedMethod) (rows : List (List Nat)) : Option (List (Option Nat)) :=
  match findSeeds cfg (mkDigraph 1 rows) m 10 (sampleWorld [1, 2]) with
  | some (.ok sr, _) => some ((List.range sr.count).map (ptrBuf sr.seeds).get)
  | _ => none

theorem arcs_same : SameArcs 4 (fun v => arcsUp.getD v []) (fun v => arcsDown.getD v []) := by
  have : ∀ v, v < 4 → ((arcsUp.getD v []).isPerm (arcsDown.getD v [])) = true := by decide
  exact fun v hv => List.isPerm_iff.1 (this v hv)

theorem arcs_input {cfg : Cfg} (hcfg : cfg = sampleCfg ∨ cfg = stableCfg) (m : SeedMethod) {l : List (List Nat)} (hl : l = arcsUp ∨ l = arcsDown) :
    SeedInput cfg (mkDigraph 1 l) (fun v => l.getD v []) m (sampleWorld [1, 2]) := by
  have hu : (sampleWorld [1, 2]).UncheckedOk := fun _ => rfl
  rcases hcfg with rfl | rfl <;> rcases hl with rfl | rfl <;>
    exact ⟨mkDigraph_repr (by decide) (by decide) (by decide) (by decide), by decide, fun _ => by decide, fun _ => hu⟩

/-- The hypotheses are met by two digraphs that store the same arcs in different orders, with all methods in the stable build; the seeds are `0` and `2`. -/
example : foundSeeds stableCfg .inwardsUpdating arcsUp = some [some 0, some 2] ∧ foundSeeds stableCfg .inwardsUpdating arcsDown = some [some 0, some 2] ∧
    foundSeeds stableCfg .exclusionUpdating arcsUp = some [some 0, some 2] ∧ foundSeeds stableCfg .exclusionUpdating arcsDown = some [some 0, some 2] ∧
    foundSeeds sampleCfg .exclusionOrder arcsUp = some [some 0, some 2] ∧ foundSeeds stableCfg .exclusionOrder arcsDown = some [some 0, some 2] := by
  decide +kernel

/-- Without the flag, the updating methods can give different seeds when the same arcs are stored in a different order. -/
theorem C62_default_depends_on_storage (m : SeedMethod) (hm : m = .inwardsUpdating ∨ m = .exclusionUpdating) :
    SameArcs 4 (fun v => arcsUp.getD v []) (fun v => arcsDown.getD v []) ∧
    SeedInput sampleCfg (mkDigraph 1 arcsUp) (fun v => arcsUp.getD v []) m (sampleWorld [1, 2]) ∧
    SeedInput sampleCfg (mkDigraph 1 arcsDown) (fun v => arcsDown.getD v []) m (sampleWorld [1, 2]) ∧
    foundSeeds sampleCfg m arcsUp = some [some 0, some 2] ∧ foundSeeds sampleCfg m arcsDown = some [some 0, some 3] := by
  refine ⟨arcs_same, arcs_input (Or.inl rfl) m (Or.inl rfl), arcs_input (Or.inl rfl) m (Or.inr rfl), ?_⟩
  rcases hm with rfl | rfl <;> decide +kernel

end Scc
