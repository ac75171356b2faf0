/-
Properties C26-C29: digraph operations.

`d.Repr cfg rows` (Spec/Digraph.lean) says that the object `d` is well formed and stores, for each vertex `v`, the
out-neighbours `rows v` in that order. Every theorem says that the call has no undefined behaviour from any world (any
schedule of allocation failures), and what it returns.
-/
import Verif.Proofs.Sample

set_option linter.unusedVariables false

namespace Scc

/-- What an operation that builds a new digraph on `n` vertices guarantees, when the digraph asked for has rows `rows`:
on success the new object stores `rows` and is the only new allocation; on failure nothing stays allocated, the error is on record, and the
error is either "too many arcs" for a digraph that cannot be represented, or "no memory" when an allocation failed. -/
def BuildsDigraph (cfg : Cfg) (n : Nat) (rows : Nat → List Nat) (w : World) (r : Except ErrorCode Digraph) (w' : World) : Prop :=
  match r with
  | .ok d => d.n = n ∧ d.Repr cfg rows ∧ w'.live = d.own + w.live
  | .error e => w'.live = w.live ∧ w'.err.code = e ∧
      (e = .tooLarge ∧ (cfg.arcMax < off rows n ∨ cfg.sizeMax < off rows n) ∨ e = .noMemory ∧ ∃ i c, w.fails i c = true)

/-- What an in-place operation guarantees: on success the object now stores `rows`; otherwise an allocation failed, this is
reported, and the object is still well formed. In both cases the object owns all it allocated. -/
def ReplacesDigraph (cfg : Cfg) (n : Nat) (rows : Nat → List Nat) (L : Multiset Nat) (w : World) (r : ErrorCode × Digraph) (w' : World) : Prop :=
  r.2.n = n ∧ w'.live = r.2.own + L ∧
  (r.1 = .ok ∧ r.2.Repr cfg rows ∨ r.1 = .noMemory ∧ w'.err.code = .noMemory ∧ (∃ i c, w.fails i c = true) ∧ ∃ rows', r.2.Repr cfg rows')

theorem not_noFail {w : World} (h : ¬ w.NoFail) : ∃ i c, w.fails i c = true := by
  unfold World.NoFail at h
  push Not at h
  obtain ⟨i, c, hi⟩ := h
  exact ⟨i, c, by simpa using hi⟩

theorem NewPost.builds {cfg : Cfg} {w w' : World} {n : Nat} {rows : Nat → List Nat} {r : Except ErrorCode Digraph}
    (h : NewPost cfg w n rows r w') : BuildsDigraph cfg n rows w r w' := by
  cases r with
  | ok d => obtain ⟨_, h2, h3, h4, _⟩ := h; exact ⟨h3, h4, h2⟩
  | error e =>
    refine ⟨h.live, h.err, ?_⟩
    rcases h.cause with h | ⟨h, h'⟩
    · exact Or.inl h
    · exact Or.inr ⟨h, not_noFail h'⟩

theorem InPlacePost.replaces {cfg : Cfg} {w w' : World} {L : Multiset Nat} {n : Nat} {rows : Nat → List Nat} {r : ErrorCode × Digraph}
    (h : InPlacePost cfg w L n rows r w') : ReplacesDigraph cfg n rows L w r w' := by
  refine ⟨h.n_eq, h.live, ?_⟩
  rcases h.cause with ⟨a, b, -⟩ | ⟨a, b, c, d⟩
  · exact Or.inl ⟨a, b⟩
  · exact Or.inr ⟨a, b, not_noFail c, d⟩

/-- C26. The union has, for each kept tail vertex, exactly the arcs present in some input, each once, self loops removed
unless requested, and no arcs for other vertices. -/
theorem C26_union {cfg : Cfg} {n : Nat} {inDgs : List Digraph} {rowss : List (Nat → List Nat)} {tails : Option (List Nat)} (keepLoops : Bool) (w : World)
    (hne : inDgs ≠ []) (hd : List.Forall₂ (fun d r => d.Repr cfg r ∧ d.n = n) inDgs rowss)
    (hts : ∀ ts, tails = some ts → ts.Pairwise (· < ·) ∧ ∀ t ∈ ts, t < n)
    (hl : ∀ d ∈ inDgs, ∀ i ∈ d.ids, i ∈ w.live) :
    ∃ rows : Nat → List Nat,
      (∀ v, (rows v).Nodup ∧ ∀ x, x ∈ rows v ↔
        (∀ ts, tails = some ts → v ∈ ts) ∧ (∃ r ∈ rowss, x ∈ r v) ∧ (keepLoops = false → x ≠ v)) ∧
      ∃ r w', unionAndDelete cfg inDgs tails keepLoops w = some (r, w') ∧ BuildsDigraph cfg n rows w r w' := by
  refine ⟨unionKeptRows keepLoops rowss tails, fun v => ⟨?_, fun x => ?_⟩, ?_⟩
  · unfold unionKeptRows
    split
    · exact nodup_firstOcc
    · simp
  · have hk : keepTail tails v = true ↔ ∀ ts, tails = some ts → v ∈ ts := by
      unfold keepTail
      cases tails <;> simp
    unfold unionKeptRows
    by_cases h : keepTail tails v = true
    · rw [if_pos h, ← hk, unionRows, mem_firstOcc, List.mem_flatMap]
      cases keepLoops <;> simp [h]
    · rw [if_neg h, ← hk]; simp [h]
  · obtain ⟨r, w', h1, h2⟩ := unionAndDelete_spec keepLoops hne hd hts hl
    exact ⟨r, w', h1, h2.builds⟩

/-- The hypotheses of `C26_union` are met by two concrete digraphs with common arcs and a loop. -/
example : ∃ (inDgs : List Digraph) (rowss : List (Nat → List Nat)) (w : World), inDgs ≠ [] ∧
    List.Forall₂ (fun d r => d.Repr sampleCfg r ∧ d.n = 3) inDgs rowss ∧ (∀ d ∈ inDgs, ∀ i ∈ d.ids, i ∈ w.live) ∧
    (∀ ts, some [0, 2] = some ts → ts.Pairwise (· < ·) ∧ ∀ t ∈ ts, t < 3) ∧
    newContents (unionAndDelete sampleCfg inDgs (some [0, 2]) false w) = some ([1, 2, 1, 0], [0, 2, 2, 4]) :=
  ⟨[mkDigraph 0 [[1, 0], [2], [1]], mkDigraph 2 [[2, 1], [], [2, 0]]], _, sampleWorld [0, 1, 2, 3], by simp,
    .cons ⟨mkDigraph_repr (by decide) (by decide) (by decide) (by decide), rfl⟩
      (.cons ⟨mkDigraph_repr (by decide) (by decide) (by decide) (by decide), rfl⟩ .nil),
    by decide, by rintro ts ⟨⟩; decide, by decide⟩

/-- C27. The transpose has the arc (x, u) as often as the input has the arc (u, x). -/
theorem C27_transpose {cfg : Cfg} {d : Digraph} {rows : Nat → List Nat} (w : World) (h : d.Repr cfg rows) (hl : ∀ i ∈ d.ids, i ∈ w.live) :
    ∃ rows' : Nat → List Nat, (∀ x u, x < d.n → u < d.n → (rows' x).count u = (rows u).count x) ∧
      ∃ r w', digraphTranspose cfg d w = some (r, w') ∧ BuildsDigraph cfg d.n rows' w r w' := by
  refine ⟨transposeRows rows d.n, fun x u _ hu => ?_, ?_⟩
  · rw [count_transposeRows, if_pos hu]
  · obtain ⟨r, w', h1, h2⟩ := digraphTranspose_spec h hl
    exact ⟨r, w', h1, h2.builds⟩

example : ∃ (d : Digraph) (rows : Nat → List Nat) (w : World), d.Repr sampleCfg rows ∧ (∀ i ∈ d.ids, i ∈ w.live) ∧
    newContents (digraphTranspose sampleCfg d w) = some ([2, 2, 1, 0, 1, 1], [0, 1, 4, 6]) :=
  ⟨mkDigraph 0 [[1], [2, 1, 2], [0, 1]], _, sampleWorld [0, 1], mkDigraph_repr (by decide) (by decide) (by decide) (by decide), by decide, by decide⟩

/-- C27, second part. Transposing twice gives back the same arcs (as a multiset, per vertex), provided both calls succeed. -/
theorem C27_transpose_twice {cfg : Cfg} {d d1 d2 : Digraph} {rows : Nat → List Nat} {w w1 w2 : World} (h : d.Repr cfg rows) (hl : ∀ i ∈ d.ids, i ∈ w.live)
    (h1 : digraphTranspose cfg d w = some (.ok d1, w1)) (h2 : digraphTranspose cfg d1 w1 = some (.ok d2, w2)) :
    d2.n = d.n ∧ ∃ rows2, d2.Repr cfg rows2 ∧ ∀ v, v < d.n → (rows2 v).Perm (rows v) := by
  obtain ⟨rows1, hc1, r, w1', e1, b1⟩ := C27_transpose w h hl
  rw [h1] at e1
  simp only [Option.some.injEq, Prod.mk.injEq] at e1
  obtain ⟨rfl, rfl⟩ := e1
  obtain ⟨hn1, hr1, hw1⟩ := b1
  have hl1 : ∀ i ∈ d1.ids, i ∈ w1.live := fun i hi => by
    rw [hw1]; exact Multiset.mem_add.2 (Or.inl (mem_ids_iff_own.1 hi))
  obtain ⟨rows2, hc2, r, w2', e2, b2⟩ := C27_transpose w1 hr1 hl1
  rw [h2] at e2
  simp only [Option.some.injEq, Prod.mk.injEq] at e2
  obtain ⟨rfl, rfl⟩ := e2
  obtain ⟨hn2, hr2, -⟩ := b2
  refine ⟨hn2.trans hn1, rows2, hr2, fun v hv => ?_⟩
  rw [List.perm_iff_count]
  intro x
  by_cases hx : x < d.n
  · rw [hc2 v x (by omega) (by omega), hc1 x v hx hv]
  · have e1 : x ∉ rows v := fun hm => hx (h.csr.range v hv x hm)
    have e2 : x ∉ rows2 v := fun hm => by have := hr2.csr.range v (by omega) x hm; omega
    rw [List.count_eq_zero.2 e1, List.count_eq_zero.2 e2]

example : ∃ (d d1 d2 : Digraph) (rows : Nat → List Nat) (w w1 w2 : World), d.Repr sampleCfg rows ∧ (∀ i ∈ d.ids, i ∈ w.live) ∧
    digraphTranspose sampleCfg d w = some (.ok d1, w1) ∧ digraphTranspose sampleCfg d1 w1 = some (.ok d2, w2) :=
  ⟨mkDigraph 0 [[1], [2, 1, 2], [0, 1]], _, _, _, sampleWorld [0, 1], _, _,
    mkDigraph_repr (by decide) (by decide) (by decide) (by decide), by decide, rfl, rfl⟩

/-- C28. The product has the arc (v, u), u ≠ v, exactly when u is reached from v by an `a`-arc (or from v itself with
`force`) followed by a `b`-arc; each once. -/
theorem C28_product {cfg : Cfg} {a b : Digraph} {ra rb : Nat → List Nat} (force : Bool) (w : World)
    (ha : a.Repr cfg ra) (hb : b.Repr cfg rb) (hn : b.n = a.n) (hal : ∀ i ∈ a.ids, i ∈ w.live) (hbl : ∀ i ∈ b.ids, i ∈ w.live) :
    ∃ rows : Nat → List Nat,
      (∀ v, (rows v).Nodup ∧ ∀ u, u ∈ rows v ↔ u ≠ v ∧ ((∃ y ∈ ra v, u ∈ rb y) ∨ force = true ∧ u ∈ rb v)) ∧
      ∃ r w', adjacencyProduct cfg a b force w = some (r, w') ∧ BuildsDigraph cfg a.n rows w r w' := by
  refine ⟨productRows force ra rb, fun v => ⟨nodup_firstOcc, fun u => ?_⟩, ?_⟩
  · rw [productRows, mem_firstOcc, List.mem_append, List.mem_flatMap]
    rw [and_comm, or_comm]
    cases force <;> simp
  · obtain ⟨r, w', h1, h2⟩ := adjacencyProduct_spec force ha hb hn hal hbl
    exact ⟨r, w', h1, h2.builds⟩

example : ∃ (a b : Digraph) (ra rb : Nat → List Nat) (w : World), a.Repr sampleCfg ra ∧ b.Repr sampleCfg rb ∧ b.n = a.n ∧
    (∀ i ∈ a.ids, i ∈ w.live) ∧ (∀ i ∈ b.ids, i ∈ w.live) ∧
    newContents (adjacencyProduct sampleCfg a b true w) = some ([2, 1, 0, 2, 1], [0, 2, 4, 5]) :=
  ⟨mkDigraph 0 [[1], [2], []], mkDigraph 2 [[2], [1, 0], [1, 2]], _, _, sampleWorld [0, 1, 2, 3],
    mkDigraph_repr (by decide) (by decide) (by decide) (by decide),
    mkDigraph_repr (by decide) (by decide) (by decide) (by decide), rfl, by decide, by decide, by decide⟩

/-- C29, first part. Deleting loops keeps exactly the other arcs, in order. -/
theorem C29_deleteLoops {cfg : Cfg} {d : Digraph} {rows : Nat → List Nat} {L : Multiset Nat} (w : World) (h : d.Repr cfg rows) (hl : w.live = d.own + L) :
    ∃ r w', deleteLoops cfg d w = some (r, w') ∧ ReplacesDigraph cfg d.n (fun v => (rows v).filter (fun a => a ≠ v)) L w r w' := by
  obtain ⟨r, w', h1, h2⟩ := deleteLoops_spec h hl
  exact ⟨r, w', h1, h2.replaces⟩

example : ∃ (d : Digraph) (rows : Nat → List Nat) (w : World) (L : Multiset Nat), d.Repr sampleCfg rows ∧ w.live = d.own + L ∧
    ((deleteLoops sampleCfg d w).bind fun p => p.1.2.contents) = some ([1, 2, 2, 0], [0, 1, 3, 4]) :=
  ⟨mkDigraph 0 [[0, 1], [2, 1, 2], [0]], _, sampleWorld [0, 1], 0, mkDigraph_repr (by decide) (by decide) (by decide) (by decide), by decide, by decide⟩

/-- C29, second part. The difference keeps, per row, the first `maxOut` arcs of the minuend that are not arcs of the
subtrahend, in order. -/
theorem C29_difference {cfg : Cfg} {m s : Digraph} {rm rs : Nat → List Nat} {L : Multiset Nat} (maxOut : Nat) (w : World)
    (hm : m.Repr cfg rm) (hs : s.Repr cfg rs) (hn : s.n = m.n) (hl : w.live = m.own + L) (hsl : ∀ i ∈ s.ids, i ∈ L) :
    ∃ r w', digraphDifference cfg m s maxOut w = some (r, w') ∧
      ReplacesDigraph cfg m.n (fun v => ((rm v).filter (fun a => a ∉ rs v)).take maxOut) L w r w' := by
  obtain ⟨r, w', h1, h2⟩ := digraphDifference_spec hm hs hn hl hsl
  exact ⟨r, w', h1, h2.replaces⟩

example : ∃ (m s : Digraph) (rm rs : Nat → List Nat) (w : World) (L : Multiset Nat), m.Repr sampleCfg rm ∧ s.Repr sampleCfg rs ∧ s.n = m.n ∧
    w.live = m.own + L ∧ (∀ i ∈ s.ids, i ∈ L) ∧
    ((digraphDifference sampleCfg m s 1 w).bind fun p => p.1.2.contents) = some ([1, 0, 0], [0, 1, 2, 3]) :=
  ⟨mkDigraph 0 [[0, 1], [2, 1, 0], [0, 1]], mkDigraph 2 [[0], [1, 2], []], _, _, sampleWorld [0, 1, 2, 3], (([2, 3] : List Nat) : Multiset Nat),
    mkDigraph_repr (by decide) (by decide) (by decide) (by decide),
    mkDigraph_repr (by decide) (by decide) (by decide) (by decide), rfl, by decide, by decide, by decide⟩

end Scc
