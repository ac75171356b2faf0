/-
Properties C60 and C61: checking, building, copying, printing and comparing digraphs (src/digraph_debug.c).

`d.Repr cfg rows` (Spec/Digraph.lean) says that the object `d` is well formed and stores, for each vertex `v`, the out-neighbours `rows v` in that order;
`BuildsDigraph` (Props/Digraph.lean) says what an operation that makes a new digraph guarantees.
-/
import Verif.Proofs.DigraphDebug
import Verif.Props.Digraph

set_option linter.unusedVariables false

namespace Scc

/-! ### C60 -/

/-- The arrays of the object have the lengths it claims, and the cells that a reader may look at have been written. Nothing is said about what they hold. -/
structure Digraph.Written (cfg : Cfg) (d : Digraph) : Prop where
  tail_len : d.tail ≠ none → (ptrBuf d.tail).len = d.n + 1
  head_len : d.head ≠ none → (ptrBuf d.head).len = d.maxArcs
  size : d.maxArcs ≤ cfg.sizeMax
  tail : d.tail ≠ none → ∀ v, v ≤ d.n → ∃ x, (ptrBuf d.tail).get v = some x
  head : ∀ m, (ptrBuf d.tail).get d.n = some m → ∀ i, i < m → i < d.maxArcs → d.head ≠ none → ∃ x, (ptrBuf d.head).get i = some x

/-- C60, validity: the check accepts exactly the objects that store a digraph. -/
theorem C60_valid {cfg : Cfg} {d : Digraph} (h : d.Written cfg) : ∃ b, digraphIsValid cfg d = some b ∧ (b = true ↔ ∃ rows, d.Repr cfg rows) :=
  digraphIsValid_spec h.tail_len h.head_len h.size h.tail h.head

/-- Both answers occur. -/
example : digraphIsValid sampleCfg (mkDigraph 0 [[1, 2], [], [0]]) = some true ∧
    digraphIsValid sampleCfg ⟨2, 2, some ⟨0, .ofList [1, 2]⟩, some ⟨1, .ofList [0, 1, 2]⟩⟩ = some false ∧
    digraphIsValid sampleCfg ⟨2, 2, some ⟨0, .ofList [1, 0]⟩, some ⟨1, .ofList [0, 2, 1]⟩⟩ = some false := by decide

example : (⟨2, 2, some ⟨0, .ofList [1, 2]⟩, some ⟨1, .ofList [0, 1, 2]⟩⟩ : Digraph).Written sampleCfg where
  tail_len _ := rfl
  head_len _ := rfl
  size := by decide
  tail _ v hv := Option.isSome_iff_exists.1 ((by decide : ∀ v, v < 3 → ((Buf.ofList [0, 1, 2]).get v).isSome = true) v (Nat.lt_succ_of_le hv))
  head _ _ i _ hi _ := Option.isSome_iff_exists.1 ((by decide : ∀ v, v < 2 → ((Buf.ofList [1, 2]).get v).isSome = true) i hi)

/-- C60, balance: the check accepts exactly the objects that store a digraph in which every vertex has `k` arcs. The product that the code computes may wrap; this does not matter. -/
theorem C60_balanced {cfg : Cfg} {d : Digraph} (h : d.Written cfg) {k : Nat} (hk : k ≤ cfg.arcMax) :
    ∃ b, isBalancedDigraph cfg d k = some b ∧ (b = true ↔ ∃ rows, d.Repr cfg rows ∧ ∀ v, v < d.n → (rows v).length = k) := by
  obtain ⟨b, hb, hiff⟩ := C60_valid h
  cases b with
  | false =>
    refine ⟨false, ?_, ?_⟩
    · unfold isBalancedDigraph
      rw [hb]
      rfl
    · simp only [Bool.false_eq_true, false_iff] at hiff ⊢
      exact fun ⟨rows, hr, _⟩ => hiff ⟨rows, hr⟩
  | true =>
    obtain ⟨rows, hr⟩ := hiff.1 rfl
    obtain ⟨c, hc, hq⟩ := isBalancedDigraph_repr hr hk
    refine ⟨c, hc, hq.trans ⟨fun h => ⟨rows, hr, h⟩, fun ⟨rows', hr', h'⟩ v hv => ?_⟩⟩
    rw [hr.csr.unique hr'.csr v hv]
    exact h' v hv

example : isBalancedDigraph sampleCfg (mkDigraph 0 [[1, 2], [0, 0], [2, 1]]) 2 = some true ∧ isBalancedDigraph sampleCfg (mkDigraph 0 [[1, 2], [0], [2, 1, 0]]) 2 = some false := by decide

/-- C60, pieces: a digraph can be made from arrays that hold one. The storage may be larger than needed. -/
theorem C60_pieces {cfg : Cfg} {n m : Nat} {tail head : Buf Nat} {rows : Nat → List Nat} (w : World) (hn : n ≤ cfg.pointMax) (hc : Csr n head tail rows)
    (hm : off rows n ≤ m) (hh : m ≤ head.len) :
    ∃ r w', digraphFromPieces cfg n m tail head w = some (r, w') ∧
      match r with
      | .ok d => d.n = n ∧ d.maxArcs = m ∧ d.Repr cfg rows ∧ w'.live = d.own + w.live
      | .error e => w'.live = w.live ∧ w'.err.code = e ∧ (e = .tooLarge ∧ (cfg.arcMax < m ∨ cfg.sizeMax < m) ∨ e = .noMemory ∧ ∃ i c, w.fails i c = true) := by
  obtain ⟨r, w', h1, h2⟩ := digraphFromPieces_spec (cfg := cfg) w hn hc hm hh
  refine ⟨r, w', h1, ?_⟩
  cases r with
  | ok d => exact ⟨h2.2.2.2.1, h2.2.2.2.2.1, h2.2.2.2.2.2, h2.2.1⟩
  | error e =>
    refine ⟨h2.live, h2.err, ?_⟩
    rcases h2.cause with h | ⟨h, h'⟩
    · exact Or.inl h
    · exact Or.inr ⟨h, not_noFail h'⟩

example : newContents (digraphFromPieces sampleCfg 3 6 (.ofList [0, 2, 2, 4]) (.ofList [1, 2, 0, 2, 7, 7]) (sampleWorld [])) = some ([1, 2, 0, 2], [0, 2, 2, 4]) := by decide

/-- C60, copies: the copy stores the same arcs in the same order, in memory of its own; the original is not changed. -/
theorem C60_copy {cfg : Cfg} {d : Digraph} {rows : Nat → List Nat} (w : World) (h : d.Repr cfg rows) (hl : ∀ i ∈ d.ids, i ∈ w.live) :
    ∃ r w', copyDigraph cfg d w = some (r, w') ∧ BuildsDigraph cfg d.n rows w r w' := by
  obtain ⟨r, w', h1, h2⟩ := copyDigraph_spec h hl
  exact ⟨r, w', h1, h2.builds⟩

example : newContents (copyDigraph sampleCfg (mkDigraph 0 [[1, 2], [], [0, 2]]) (sampleWorld [0, 1])) = some ([1, 2, 0, 2], [0, 2, 2, 4]) := by decide

/-- C60, strings: let a string consist of `n` rows of `n` cells (`#` or `.`), each row followed by a slash, with any other characters between them. The digraph made from it has an arc from `v` to `u` exactly when the cell in
row `v` and column `u` is a `#`. -/
theorem C60_string {cfg : Cfg} {n : Nat} {L : List (List Bool)} (hn : L.length = n) (hL : ∀ r ∈ L, r.length = n) (h0 : 0 < n) (hp : n ≤ cfg.pointMax) {s : List Char}
    (hs : (s.filter fun c => c = '#' || c = '.' || c = '/') = L.flatMap fun r => (r.map fun b => if b then '#' else '.') ++ ['/']) (w : World) :
    ∃ rows : Nat → List Nat, (∀ v, (rows v).Nodup ∧ ∀ u, u ∈ rows v ↔ ∃ r, L[v]? = some r ∧ r[u]? = some true) ∧
      ∃ r w', digraphFromString cfg s w = some (r, w') ∧ BuildsDigraph cfg n rows w r w' := by
  refine ⟨matrixRows L, fun v => ⟨sorted_marked.imp fun h => Nat.ne_of_lt h, fun u => ?_⟩, ?_⟩
  · rw [matrixRows, mem_marked]
    simp only [Nat.zero_le, true_and, Nat.sub_zero, List.getD_eq_getElem?_getD]
    cases L[v]? <;> simp
  · obtain ⟨r, w', h1, h2⟩ := digraphFromString_spec (cfg := cfg) L hn hL h0 hp hs w
    exact ⟨r, w', h1, h2.builds⟩

/-- The example of the documentation, with spaces. -/
example : newContents (digraphFromString sampleCfg ".##./ ..#. / ...#/#..#/".toList (sampleWorld [])) = some ([1, 2, 2, 3, 0, 3], [0, 2, 3, 4, 6]) := by decide

example : (".##./ ..#. / ...#/#..#/".toList.filter fun c => c = '#' || c = '.' || c = '/') =
    [[false, true, true, false], [false, false, true, false], [false, false, false, true], [true, false, false, true]].flatMap fun r => (r.map fun b => if b then '#' else '.') ++ ['/'] := by decide

/-- C60, printing: the adjacency matrix is written row by row, with a line for each row and an empty line at the end. Nothing stays allocated. -/
theorem C60_print {cfg : Cfg} {d : Digraph} {rows : Nat → List Nat} (w : World) (h : d.Repr cfg rows) (hl : ∀ i ∈ d.ids, i ∈ w.live) (hn : 0 < d.n) :
    ∃ out w', printDigraph d w = some (out, w') ∧ w'.live = w.live ∧
      (out = ((List.range d.n).flatMap fun v => ((List.range d.n).map fun u => if u ∈ rows v then '#' else '.') ++ ['\n']) ++ ['\n'] ∨
        (∃ i c, w.fails i c = true) ∧ out = "Out of memory.\n\n".toList) := by
  obtain ⟨out, w', h1, h2, h3, h4, h5⟩ := printDigraph_spec h hl
  refine ⟨out, w', h1, h3, ?_⟩
  rcases h5 with ⟨h5, -⟩ | ⟨-, h5, h6⟩ | ⟨-, h5⟩
  · omega
  · exact Or.inr ⟨not_noFail h5, h6⟩
  · refine Or.inl ?_
    rw [h5]
    congr 2
    funext v
    simp [matrixRow, cellChar]

example : (printDigraph (mkDigraph 0 [[1, 2], [], [0, 2, 0]]) (sampleWorld [0, 1])).map Prod.fst = some ".##\n...\n#.#\n\n".toList := by decide

/-- C60, printing and reading: if the lines that were printed are ended by slashes, reading them gives a digraph with the same arcs. -/
theorem C60_print_read {cfg : Cfg} {d : Digraph} {rows : Nat → List Nat} {w w1 : World} (h : d.Repr cfg rows) (hl : ∀ i ∈ d.ids, i ∈ w.live) (hn : 0 < d.n) (hw : w.NoFail)
    {out : List Char} (hout : printDigraph d w = some (out, w1)) (w2 : World) :
    ∃ rows' : Nat → List Nat, (∀ v, v < d.n → ∀ u, u ∈ rows' v ↔ u ∈ rows v) ∧
      ∃ r w', digraphFromString cfg (out.dropLast.map fun c => if c = '\n' then '/' else c) w2 = some (r, w') ∧ BuildsDigraph cfg d.n rows' w2 r w' := by
  obtain ⟨out', w', h1, -, h2⟩ := C60_print w h hl hn
  rw [hout] at h1
  cases h1
  rcases h2 with rfl | ⟨⟨i, c, hi⟩, -⟩
  swap
  · rw [hw i c] at hi; simp at hi
  obtain ⟨rows', k1, k2⟩ := C60_string (cfg := cfg) (n := d.n) (L := (List.range d.n).map (matrixRow rows d.n)) (by simp) (by simp [matrixRow]) hn h.vertices
    (s := (((List.range d.n).flatMap fun v => ((List.range d.n).map fun u => if u ∈ rows v then '#' else '.') ++ ['\n']) ++ ['\n']).dropLast.map fun c => if c = '\n' then '/' else c)
    (by
      rw [List.dropLast_concat, List.map_flatMap, List.flatMap_map, List.filter_eq_self.2]
      · congr 1
        funext v
        simp only [List.map_append, List.map_map, matrixRow, List.map_cons, List.map_nil, if_true]
        congr 1
        refine List.map_congr_left fun u _ => ?_
        by_cases hu : u ∈ rows v <;> simp [hu]
      · intro c hc
        simp only [List.mem_flatMap, List.mem_map, List.mem_append, List.mem_range, List.mem_singleton] at hc
        obtain ⟨v, -, x, (⟨u, -, rfl⟩ | rfl), rfl⟩ := hc
        · by_cases hu : u ∈ rows v <;> simp [hu]
        · simp) w2
  refine ⟨rows', fun v hv u => ?_, k2⟩
  rw [(k1 v).2 u]
  simp only [List.getElem?_map, List.getElem?_range hv, Option.map_some, Option.some.injEq, exists_eq_left', matrixRow]
  by_cases hu : u < d.n
  · rw [List.getElem?_range hu]; simp
  · rw [List.getElem?_eq_none (by simpa using hu)]
    simp only [Option.map_none, reduceCtorEq, false_iff]
    intro hm
    exact hu (h.csr.range v hv u hm)

/-! ### C61 -/

/-- C61, comparison, when the request for memory (which the code does not check) succeeds: the answer is yes exactly when the digraphs have equally many vertices and the same arcs, however often and in whatever order they are
stored. Nothing stays allocated. -/
theorem C61_equal_partial {cfg : Cfg} {a b : Digraph} {ra rb : Nat → List Nat} {w : World} (ha : a.Repr cfg ra) (hb : b.Repr cfg rb) (hal : ∀ i ∈ a.ids, i ∈ w.live)
    (hbl : ∀ i ∈ b.ids, i ∈ w.live) (hu : w.UncheckedOk) :
    ∃ r w', digraphsEqual a b w = some (r, w') ∧ w'.live = w.live ∧ (r = true ↔ a.n = b.n ∧ ∀ v, v < a.n → ∀ x, x ∈ ra v ↔ x ∈ rb v) := by
  obtain ⟨r, w', h1, h2, -, h3, -⟩ := digraphsEqual_spec ha hb hal hbl hu
  exact ⟨r, w', h1, h3, h2⟩

example : (digraphsEqual (mkDigraph 0 [[1, 2], [], [0]]) (mkDigraph 2 [[2, 1, 2], [], [0, 0]]) (sampleWorld [0, 1, 2, 3])).map Prod.fst = some true ∧
    (digraphsEqual (mkDigraph 0 [[1, 2], [], [0]]) (mkDigraph 2 [[2], [], [0]]) (sampleWorld [0, 1, 2, 3])).map Prod.fst = some false ∧
    (digraphsEqual (mkDigraph 0 [[2], [], [0]]) (mkDigraph 2 [[1, 2], [], [0]]) (sampleWorld [0, 1, 2, 3])).map Prod.fst = some false := by decide

/-- C61 is false for comparison: when memory runs out a NULL pointer is used. -/
theorem C61_fails_equal : ∃ (a b : Digraph) (ra rb : Nat → List Nat) (w : World), a.Repr sampleCfg ra ∧ b.Repr sampleCfg rb ∧ (∀ i ∈ a.ids, i ∈ w.live) ∧ (∀ i ∈ b.ids, i ∈ w.live) ∧
    digraphsEqual a b w = none :=
  ⟨mkDigraph 0 [[1], [0]], mkDigraph 2 [[1], [0]], _, _, { sampleWorld [0, 1, 2, 3] with fails := fun _ _ => true },
    mkDigraph_repr (by decide) (by decide) (by decide) (by decide), mkDigraph_repr (by decide) (by decide) (by decide) (by decide), by decide, by decide, by decide⟩

/-- C61, malformed strings, restricted to the ones that the code looks for: if the first row is not empty, and up to the end of some row the number of cells is not a multiple of the number of cells in the first row, the string is rejected. -/
theorem C61_reject_partial {cfg : Cfg} {s p q : List Char} (hn : 0 < firstRow s) (hs : s = p ++ '/' :: q) (hp : cellsIn p % firstRow s ≠ 0) (w : World) :
    ∃ w', digraphFromString cfg s w = some (.error .invalidInput, w') ∧ w'.live = w.live ∧ w'.err.code = .invalidInput := by
  obtain ⟨r, w', h1, rfl, -, h2, h3⟩ := digraphFromString_rejects (cfg := cfg) hn hs hp w
  exact ⟨w', h1, h2, h3⟩

example : 0 < firstRow ".#/#/".toList ∧ ".#/#/".toList = ".#/#".toList ++ '/' :: [] ∧ cellsIn ".#/#".toList % firstRow ".#/#/".toList ≠ 0 := by decide

/-- C61 is false for strings with an empty first row: remainder by zero. -/
theorem C61_fails_emptyRow : digraphFromString sampleCfg "/".toList (sampleWorld []) = none := by decide

/-- C61 is false for strings with more rows than columns: write out of bounds. -/
theorem C61_fails_rows : digraphFromString sampleCfg "#./.#/##/".toList (sampleWorld []) = none := by decide

/-- C61 is false for strings with a row that is a multiple of the first row: the result is not a valid digraph. -/
theorem C61_fails_longRow : ∃ d w', digraphFromString sampleCfg "#./.#.#/".toList (sampleWorld []) = some (.ok d, w') ∧ digraphIsValid sampleCfg d = some false := ⟨_, _, rfl, by decide⟩

/-- C61 is false for strings with too few rows: the result has offsets that were never written. -/
theorem C61_fails_fewRows : ∃ d w', digraphFromString sampleCfg "#../".toList (sampleWorld []) = some (.ok d, w') ∧ digraphIsValid sampleCfg d = none := ⟨_, _, rfl, by decide⟩

end Scc
