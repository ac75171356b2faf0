/-
Properties C03, C04, C30, C31: seed finding (src/nng_findseeds.c).

`d.Repr cfg rows` says that the digraph object `d` stores the out-neighbours `rows v` of each vertex `v`; `closedNbr rows v` is `v`
together with its out-neighbours. All theorems hold for every initial capacity and every schedule of allocation failures, except that for the exclusion
methods the schedules in which their second request fails are excluded (`second`): the code then uses a freed
block, see `C38_fails_exclusion`. The inwards updating method needs digraphs without parallel arcs (all
digraphs of the library are of this kind).
-/
import Verif.Proofs.SeedsFind
import Verif.Proofs.Sample
import Verif.Props.Digraph

set_option linter.unusedVariables false

namespace Scc

/-- Conditions under which the seed-finding methods are used. -/
structure SeedInput (cfg : Cfg) (d : Digraph) (rows : Nat → List Nat) (m : SeedMethod) (w : World) : Prop where
  repr : d.Repr cfg rows
  live : ∀ i ∈ d.ids, i ∈ w.live
  simple : m = .inwardsUpdating → ∀ v, v < d.n → (rows v).Nodup
  second : m = .exclusionOrder ∨ m = .exclusionUpdating → w.UncheckedOk

/-- C03. The call has no undefined behaviour. On success the returned object is the only new allocation and holds a list of distinct vertices, each
with outgoing arcs, whose closed neighbourhoods are pairwise disjoint. On failure the error is "too large" or "no memory", and an allocation failed in the latter case. -/
theorem C03_seeds_disjoint {cfg : Cfg} {d : Digraph} {rows : Nat → List Nat} {m : SeedMethod} {w : World} (cap : Nat) (h : SeedInput cfg d rows m w) :
    ∃ r w', findSeeds cfg d m cap w = some (r, w') ∧
      match r with
      | .ok sr => w'.live = ptrOwn sr.seeds + w.live ∧ ∃ S : List Nat, sr.Holds S ∧ S.Nodup ∧ (∀ s ∈ S, s < d.n ∧ rows s ≠ []) ∧
          ∀ s ∈ S, ∀ t ∈ S, s ≠ t → ∀ x, x ∈ closedNbr rows s → x ∉ closedNbr rows t
      | .error e => w'.err.code = e ∧ (e = .tooLarge ∨ e = .noMemory ∧ ∃ i c, w.fails i c = true) := by
  obtain ⟨r, w', h1, h2⟩ := findSeeds_spec m cap h.repr h.simple h.live h.second
  refine ⟨r, w', h1, ?_⟩
  cases r with
  | error e =>
    obtain ⟨leak, h3, -⟩ := h2
    exact ⟨h3.err, h3.cause.imp (fun hx => hx.1) (fun hx => ⟨hx.1, not_noFail (w := w) hx.2⟩)⟩
  | ok sr =>
    obtain ⟨o, h3, h4, h5⟩ := h2
    have hsub := greedySeeds_sublist rows o
    refine ⟨h5.live, greedySeeds rows o, h5.holds, (h4.nodup_iff.2 List.nodup_range).sublist hsub, fun s hs => ⟨?_, greedySeeds_arcs s hs⟩, ?_⟩
    · simpa using h4.mem_iff.1 (hsub.subset hs)
    · have hp := greedySeeds_disjoint (rows := rows) (l := o)
      have hsym : Std.Symm fun a b => ∀ x, x ∈ closedNbr rows a → x ∉ closedNbr rows b := ⟨fun a b hab x hb ha => hab x ha hb⟩
      intro s hs t ht hst
      exact hp.forall hs ht hst

theorem SeedResult.Holds.unique {sr : SeedResult} {S T : List Nat} (h : sr.Holds S) (h' : sr.Holds T) : S = T := by
  obtain ⟨b, e1, -, g1⟩ := h.block
  obtain ⟨b', e2, -, g2⟩ := h'.block
  rw [e1] at e2
  cases e2
  have hlen : S.length = T.length := by rw [← h.count, h'.count]
  apply List.ext_getElem hlen
  intro i hi hi'
  have a1 := g1 i _ (List.getElem?_eq_getElem hi)
  have a2 := g2 i _ (List.getElem?_eq_getElem hi')
  rw [a1] at a2
  exact Option.some.inj a2

/-- C04. When seeds are returned, every vertex with outgoing arcs has a closed neighbourhood that meets the closed neighbourhood of a seed, so none can be added. -/
theorem C04_seeds_maximal {cfg : Cfg} {d : Digraph} {rows : Nat → List Nat} {m : SeedMethod} {w w' : World} {sr : SeedResult} {cap : Nat} {S : List Nat}
    (h : SeedInput cfg d rows m w) (hrun : findSeeds cfg d m cap w = some (.ok sr, w')) (hS : sr.Holds S) :
    ∀ v, v < d.n → rows v ≠ [] → ∃ s ∈ S, ∃ x, x ∈ closedNbr rows v ∧ x ∈ closedNbr rows s := by
  obtain ⟨r, w1, h1, h2⟩ := findSeeds_spec m cap h.repr h.simple h.live h.second
  rw [hrun] at h1
  cases h1
  obtain ⟨o, h3, h4, h5⟩ := h2
  rw [hS.unique h5.holds]
  intro v hv hr
  obtain ⟨s, hs, x, hx⟩ := greedySeeds_maximal v (h4.mem_iff.2 (by simpa using hv)) hr
  exact ⟨s, hs, x, hx⟩

/-- C31. When seeds are returned, there is an order of all vertices, following the documentation of the method (`MethodOrder`), such that the seeds
are found by considering the vertices in that order and taking each one whose closed neighbourhood meets that of no earlier seed. -/
theorem C31_seed_order {cfg : Cfg} {d : Digraph} {rows : Nat → List Nat} {m : SeedMethod} {w w' : World} {sr : SeedResult} {cap : Nat} {S : List Nat}
    (h : SeedInput cfg d rows m w) (hrun : findSeeds cfg d m cap w = some (.ok sr, w')) (hS : sr.Holds S) :
    ∃ order : List Nat, order.Perm (List.range d.n) ∧ MethodOrder m rows d.n order ∧ S = greedySeeds rows order := by
  obtain ⟨r, w1, h1, h2⟩ := findSeeds_spec m cap h.repr h.simple h.live h.second
  rw [hrun] at h1
  cases h1
  obtain ⟨o, h3, h4, h5⟩ := h2
  exact ⟨o, h4, h3, hS.unique h5.holds⟩

/-- C30. The exclusion graph, for the list `keep` of vertices with outgoing arcs (or NULL when all have some): from each vertex with outgoing arcs
there is exactly one arc to each other vertex that it points to, that points to it, or that shares an out-neighbour with it; there are no other arcs. -/
theorem C30_exclusion_graph {cfg : Cfg} {d : Digraph} {rows : Nat → List Nat} {w : World} {keep : Option (List Nat)}
    (h : d.Repr cfg rows) (hl : ∀ i ∈ d.ids, i ∈ w.live)
    (hk : keep = none ∧ (∀ v, v < d.n → rows v ≠ []) ∨ keep = some ((List.range d.n).filter fun v => rows v ≠ [])) :
    ∃ rows' : Nat → List Nat,
      (∀ v, v < d.n → (rows' v).Nodup ∧ ∀ u, u ∈ rows' v ↔
        rows v ≠ [] ∧ u < d.n ∧ u ≠ v ∧ (u ∈ rows v ∨ v ∈ rows u ∨ ∃ x, x ∈ rows v ∧ x ∈ rows u)) ∧
      ∃ r w', exclusionGraph cfg d keep w = some (r, w') ∧
        match r with
        | .ok ex => ex.n = d.n ∧ ex.Repr cfg rows' ∧ w'.live = ex.own + w.live
        | .error e => w'.live = w.live ∧ w'.err.code = e ∧ (e = .tooLarge ∨ e = .noMemory ∧ ∃ i c, w.fails i c = true) := by
  refine ⟨conflictRows rows d.n, fun v hv => ⟨nodup_conflictRows, fun u => ?_⟩, ?_⟩
  · rw [mem_conflictRows h.csr.range hv]
    unfold Conflict
    simp only [closedNbr, List.mem_cons]
    constructor
    · rintro ⟨h1, h2, h3, x, rfl | hx, rfl | hy⟩
      · exact absurd rfl h3
      · exact ⟨h1, h2, Ne.symm h3, Or.inr (Or.inl hy)⟩
      · exact ⟨h1, h2, Ne.symm h3, Or.inl hx⟩
      · exact ⟨h1, h2, Ne.symm h3, Or.inr (Or.inr ⟨x, hx, hy⟩)⟩
    · rintro ⟨h1, h2, h3, h4 | h4 | ⟨x, h4, h5⟩⟩
      · exact ⟨h1, h2, Ne.symm h3, u, Or.inr h4, Or.inl rfl⟩
      · exact ⟨h1, h2, Ne.symm h3, v, Or.inl rfl, Or.inr h4⟩
      · exact ⟨h1, h2, Ne.symm h3, x, Or.inr h4, Or.inr h5⟩
  · have hk' : KeepArcs rows d.n keep := by
      rcases hk with ⟨rfl, hk⟩ | rfl
      · exact hk
      · rfl
    obtain ⟨r, w', h1, h2⟩ := exclusionGraph_spec h hl hk'
    refine ⟨r, w', h1, ?_⟩
    cases r with
    | ok ex => exact ⟨h2.2.2.1, h2.2.2.2.1, h2.2.1⟩
    | error e => exact ⟨h2.live, h2.err, h2.cause.imp (fun hx => hx.1) (fun hx => ⟨hx.1, not_noFail hx.2⟩)⟩

/-! ### Examples -/

/-- The seeds found by a run. -/
def seedsOf (r : Option (Except ErrorCode SeedResult × World)) : Option (List Nat) :=
  match r with
  | some (.ok sr, _) => (ptrBuf sr.seeds).read sr.count
  | _ => none

/-- A digraph on eight vertices, one of them without arcs. -/
def sampleNng : Digraph := mkDigraph 0 [[1, 2], [0, 3], [1, 4], [4], [3, 5], [6, 7], [], [5, 6]]

theorem sampleNng_input (m : SeedMethod) : SeedInput sampleCfg sampleNng (fun v => [[1, 2], [0, 3], [1, 4], [4], [3, 5], [6, 7], [], [5, 6]].getD v []) m (sampleWorld [0, 1]) :=
  ⟨mkDigraph_repr (by decide) (by decide) (by decide) (by decide), by decide, fun _ => by decide, fun _ _ => rfl⟩

/-- On this digraph every method returns seeds (no allocation fails and no size limit is reached). -/
example (m : SeedMethod) : ∃ sr w', findSeeds sampleCfg sampleNng m 1 (sampleWorld [0, 1]) = some (.ok sr, w') := by
  obtain ⟨r, w', h1, h2⟩ := findSeeds_spec m 1 (sampleNng_input m).repr (sampleNng_input m).simple (sampleNng_input m).live (sampleNng_input m).second
  cases r with
  | ok sr => exact ⟨sr, w', h1⟩
  | error e =>
    obtain ⟨leak, h3, -⟩ := h2
    rcases h3.cause with ⟨-, ⟨-, h4⟩ | h4⟩ | ⟨-, h4⟩
    · exact absurd h4 (by unfold ExclBig; decide +kernel)
    · exact absurd h4 (by decide)
    · exact absurd (fun _ _ => rfl) h4

-- Tests of the model (not proofs): the seeds each method finds on this digraph.
#guard seedsOf (findSeeds sampleCfg sampleNng .lexical 1 (sampleWorld [0, 1])) == some [0, 3, 5]
#guard seedsOf (findSeeds sampleCfg sampleNng .inwardsOrder 1 (sampleWorld [0, 1])) == some [0, 7, 3]
#guard seedsOf (findSeeds sampleCfg sampleNng .inwardsUpdating 1 (sampleWorld [0, 1])) == some [0, 7, 3]
#guard seedsOf (findSeeds sampleCfg sampleNng .exclusionOrder 1 (sampleWorld [0, 1])) == some [0, 5, 3]
#guard seedsOf (findSeeds sampleCfg sampleNng .exclusionUpdating 1 (sampleWorld [0, 1])) == some [0, 3, 5]
#guard newContents (exclusionGraph sampleCfg (mkDigraph 0 [[1], [2], [], [2]]) (some [0, 1, 3]) (sampleWorld [0, 1])) == some ([1, 2, 0, 3, 2, 1], [0, 1, 4, 4, 6])

/-- The hypotheses of `C30_exclusion_graph` are met. -/
example : (mkDigraph 0 [[1], [2], [], [2]]).Repr sampleCfg (fun v => [[1], [2], [], [2]].getD v []) ∧
    some [0, 1, 3] = some ((List.range 4).filter fun v => [[1], [2], [], [2]].getD v [] ≠ []) :=
  ⟨mkDigraph_repr (by decide) (by decide) (by decide) (by decide), by decide⟩

end Scc
