/-
Properties C21-C25: the built-in distance search (src/dist_search_imp.c).

Distances are computed by arbitrary operations `FloatOps`; the theorems about order assume the laws `FloatLaws` of IEEE comparisons and that no NaN occurs.
`ds.sqd i j` is the computed sum of squared coordinate differences and `ds.dist i j` its square root (Spec/Spi.lean).
-/
import Verif.Proofs.DistMetric
import Verif.Proofs.SampleData
import Verif.Props.Digraph

set_option linter.unusedVariables false

namespace Scc

variable {F : Type} [FloatOps F]

/-- A complete use of the nearest neighbour search: initialise a search object, search once, close the object. -/
def searchOnce (spi : Spi F) (len : Nat) (search : Option Arr) (lenQ : Nat) (queries : Option Arr) (k : Nat) (rs : Bool) (radius : F) (oq : OutQ)
    (nn : Buf Nat) : M (Option NNOut) := do
  match ← spi.nnInit len search with
  | none => pure none
  | some o => do
    let r ← spi.nnSearch o lenQ queries k rs radius oq nn
    let _ ← spi.nnClose o
    pure r

/-- The arguments of a search are valid: the search array holds the distinct points `L`, the query array the points `Q`, all arrays are live and
in range, the output arrays are large enough, and `1 <= k <= length of L`. An output array for queries is needed only with a radius. -/
structure SearchInput (ds : DataSet F) (search : Option Arr) (L : List Nat) (queries : Option Arr) (Q : List Nat) (k : Nat) (oq : OutQ) (nn : Buf Nat) (w : World) : Prop where
  complete : ds.Complete
  searchHolds : ArrHolds search L
  queryHolds : ArrHolds queries Q
  distinct : L.Nodup
  searchRange : ∀ x ∈ L, x < ds.n
  queryRange : ∀ x ∈ Q, x < ds.n
  searchLive : ∀ i ∈ arrIds search, i ∈ w.live
  queryLive : ∀ i ∈ arrIds queries, i ∈ w.live
  someQuery : Q ≠ []
  kpos : 0 < k
  kle : k ≤ L.length
  room : Q.length * k ≤ nn.len
  oroom : oq = .null ∨ Q.length ≤ oq.len queries
  same : oq = .same → queries ≠ none

theorem searchOnce_spec {ds : DataSet F} {search queries : Option Arr} {L Q : List Nat} {k : Nat} {rs : Bool} {radius : F} {oq : OutQ} {nn : Buf Nat} {w : World}
    (h : SearchInput ds search L queries Q k oq nn w) :
    WpM (searchOnce (builtinSpi (some ds)) L.length search Q.length queries k rs radius oq nn) w fun r w' => w'.fails = w.fails ∧ w'.err = w.err ∧ w'.live = w.live ∧
      match r with
      | none => ∃ i c, w.fails i c = true
      | some out => out.nn.len = nn.len ∧ (oq ≠ .null → out.outQ.len = oq.len queries) ∧
          out.Matches oq k (answers ds L k (if rs then some radius else none) Q) := by
  have hkL : 0 < L.length := lt_of_lt_of_le h.kpos h.kle
  unfold searchOnce
  rw [wpM_bind]
  have h0 := (searchInit_spec ds.n L.length search L w h.searchHolds rfl h.distinct h.searchRange)
  refine WpM.mono (x := (builtinSpi (some ds)).nnInit L.length search) h0 ?_
  rintro (_ | o) w1 ⟨a1, a2, a3⟩
  · rw [wpM_pure]
    exact ⟨a1, a2, a3.1, not_noFail (a3.2.resolve_right id)⟩
  · obtain ⟨own, hnn, a4⟩ := a3
    dsimp only
    rw [wpM_bind]
    have hcall : NNCall ds.n L w1 (arrIds search) Q.length queries Q k rs oq nn := by
      refine ⟨h.queryHolds, rfl, fun i hi => ?_, fun i hi => ?_, List.length_pos_of_ne_nil h.someQuery, h.queryRange, h.kpos, h.kle, h.room, h.oroom, h.same⟩
      · rw [a4]; exact Multiset.mem_add.2 (Or.inr (h.searchLive i hi))
      · rw [a4]; exact Multiset.mem_add.2 (Or.inr (h.queryLive i hi))
    have h1 := nnSearch_spec ds h.complete o L own _ Q.length queries Q k rs radius oq nn w1 hnn (by rw [a4]; exact Multiset.le_add_right _ _) hcall
    refine WpM.mono (x := (builtinSpi (some ds)).nnSearch o Q.length queries k rs radius oq nn) h1 ?_
    rintro r w2 ⟨b1, b2, b3, b4⟩
    rw [wpM_bind]
    have h2 := searchClose_spec ds.n o L own _ w2 w.live hnn (by rw [b3, a4])
    refine WpM.mono (x := (builtinSpi (some ds)).nnClose o) h2 ?_
    rintro _ w3 ⟨c1, c2, c3, -⟩
    rw [wpM_pure]
    refine ⟨by rw [c1, b1, a1], by rw [c2, b2, a2], c3, ?_⟩
    cases r with
    | none =>
      obtain ⟨i, c, hi⟩ := not_noFail b4
      exact ⟨i, c, by rw [← a1]; exact hi⟩
    | some out => exact b4

/-- The neighbours that the search stored for the `i`-th answered query. -/
def NNOut.Neighbors (out : NNOut) (k i : Nat) (l : List Nat) : Prop := l.length = k ∧ ∀ (j x : Nat), l[j]? = some x → out.nn.get (i * k + j) = some x

/-- C21. A search without radius has no undefined behaviour, leaves no memory behind and fails only if an allocation fails. Otherwise every query is answered,
by `k` distinct search points that are ordered by distance (ties by position in the search array) and come before all other search points in that order. -/
theorem C21_nearest_neighbors (laws : FloatLaws F) {ds : DataSet F} {search queries : Option Arr} {L Q : List Nat} {k : Nat} (radius : F) {oq : OutQ} {nn : Buf Nat}
    {w : World} (h : SearchInput ds search L queries Q k oq nn w) (hnum : ∀ q ∈ Q, ∀ x ∈ L, IsNum (ds.sqd q x)) :
    ∃ r w', searchOnce (builtinSpi (some ds)) L.length search Q.length queries k false radius oq nn w = some (r, w') ∧ w'.live = w.live ∧
      match r with
      | none => ∃ i c, w.fails i c = true
      | some out => out.numOk = Q.length ∧ (oq ≠ .null → ∀ (i q : Nat), Q[i]? = some q → out.outQ.get i = some q) ∧
          ∀ (i q : Nat), Q[i]? = some q → ∃ l, out.Neighbors k i l ∧ l.Nodup ∧ (∀ x ∈ l, x ∈ L) ∧ l.Pairwise (Nearer (ds.sqd q) L) ∧
            ∀ x ∈ L, x ∉ l → ∀ y ∈ l, Nearer (ds.sqd q) L y x := by
  obtain ⟨r, w', h1, -, -, h2, h3⟩ := searchOnce_spec (rs := false) (radius := radius) h
  refine ⟨r, w', h1, h2, ?_⟩
  cases r with
  | none => exact h3
  | some out =>
    obtain ⟨-, -, hm⟩ := h3
    rw [if_neg Bool.false_ne_true] at hm
    have hwf : ∀ q, ∃ l, nnAnswer (ds.sqd q) L k none = some l := fun q =>
      Option.ne_none_iff_exists'.1 ((nnAnswer_wellFormed h.distinct h.kle q).1 rfl)
    have hans : answered (answers ds L k none Q) = Q.map fun q => (q, (nnAnswer (ds.sqd q) L k none).getD []) := by
      rw [answered, answers, List.filterMap_map]
      clear h1 hnum h hm
      induction Q with
      | nil => rfl
      | cons q Q ih =>
        obtain ⟨l, hl⟩ := hwf q
        rw [List.filterMap_cons, List.map_cons, ih]
        simp [hl]
    have hget : ∀ (i q : Nat), Q[i]? = some q → (answered (answers ds L k none Q))[i]? = some (q, (nnAnswer (ds.sqd q) L k none).getD []) := by
      intro i q hq; rw [hans, List.getElem?_map, hq]; rfl
    refine ⟨by rw [hm.numOk, hans, List.length_map], fun ho i q hq => hm.queries ho i _ (hget i q hq), fun i q hq => ?_⟩
    obtain ⟨l, hl⟩ := hwf q
    have h4 := hm.neighbors i _ (hget i q hq)
    rw [hl] at h4
    have hqm : q ∈ Q := List.mem_of_getElem? hq
    have hw := (nnAnswer_wellFormed (d := ds.sqd q) (radius := none) h.distinct h.kle q).2 l hl
    have hn := nnAnswer_nearest laws h.kpos h.distinct (hnum q hqm) (by simp) hl
    exact ⟨l, ⟨hw.1, h4⟩, hw.2.1, hw.2.2, hn.1, hn.2.1⟩

/-- Number of search points within the radius of a query, as computed. -/
def withinRadius (ds : DataSet F) (L : List Nat) (radius : F) (q : Nat) : Nat :=
  L.countP fun x => FloatOps.le (ds.sqd q x) (FloatOps.mul radius radius)

/-- C22. A search with a radius answers exactly the queries with at least `k` search points within the radius, in the order of the query array, and the
answers are the `k` nearest search points, all within the radius. -/
theorem C22_radius_search (laws : FloatLaws F) {ds : DataSet F} {search queries : Option Arr} {L Q : List Nat} {k : Nat} {radius : F} {oq : OutQ} {nn : Buf Nat}
    {w : World} (h : SearchInput ds search L queries Q k oq nn w) (hnum : ∀ q ∈ Q, ∀ x ∈ L, IsNum (ds.sqd q x)) (hr : IsNum (FloatOps.mul radius radius)) :
    ∃ r w', searchOnce (builtinSpi (some ds)) L.length search Q.length queries k true radius oq nn w = some (r, w') ∧ w'.live = w.live ∧
      match r with
      | none => ∃ i c, w.fails i c = true
      | some out =>
          let found := Q.filter fun q => k ≤ withinRadius ds L radius q
          out.numOk = found.length ∧ (oq ≠ .null → ∀ (i q : Nat), found[i]? = some q → out.outQ.get i = some q) ∧
          ∀ (i q : Nat), found[i]? = some q → ∃ l, out.Neighbors k i l ∧ l.Nodup ∧
            (∀ x ∈ l, x ∈ L ∧ FloatOps.le (ds.sqd q x) (FloatOps.mul radius radius) = true) ∧ l.Pairwise (Nearer (ds.sqd q) L) ∧
            ∀ x ∈ L, x ∉ l → ∀ y ∈ l, Nearer (ds.sqd q) L y x := by
  obtain ⟨r, w', h1, -, -, h2, h3⟩ := searchOnce_spec (rs := true) (radius := radius) h
  refine ⟨r, w', h1, h2, ?_⟩
  cases r with
  | none => exact h3
  | some out =>
    obtain ⟨-, -, hm⟩ := h3
    rw [if_pos rfl] at hm
    dsimp only
    have hsome : ∀ q ∈ Q, (nnAnswer (ds.sqd q) L k (some radius) ≠ none ↔ k ≤ withinRadius ds L radius q) := by
      intro q hq
      rw [nnAnswer_isSome]
      unfold withinRadius
      have : L.countP (fun j => !(some radius).any fun r => FloatOps.lt (FloatOps.mul r r) (ds.sqd q j)) =
          L.countP fun x => FloatOps.le (ds.sqd q x) (FloatOps.mul radius radius) := by
        apply List.countP_congr
        intro x hx
        have := laws.lt_iff _ _ hr (hnum q hq x hx)
        simp only [Option.any_some]
        cases hlt : FloatOps.lt (FloatOps.mul radius radius) (ds.sqd q x) <;> cases hle : FloatOps.le (ds.sqd q x) (FloatOps.mul radius radius) <;> simp_all
      rw [this]
    have hans : answered (answers ds L k (some radius) Q) =
        (Q.filter fun q => k ≤ withinRadius ds L radius q).map fun q => (q, (nnAnswer (ds.sqd q) L k (some radius)).getD []) := by
      rw [answered, answers, List.filterMap_map]
      clear h1 hnum h hm
      induction Q with
      | nil => rfl
      | cons q Q ih =>
        have hq := hsome q (by simp)
        have ih' := ih (fun q hq => hsome q (by simp [hq]))
        rw [List.filterMap_cons, ih', List.filter_cons]
        cases hl : nnAnswer (ds.sqd q) L k (some radius) with
        | none =>
          rw [hl] at hq
          have : ¬ k ≤ withinRadius ds L radius q := fun hc => hq.2 hc rfl
          simp [hl, this]
        | some l =>
          rw [hl] at hq
          have : k ≤ withinRadius ds L radius q := hq.1 (by simp)
          simp [hl, this]
    have hget : ∀ (i q : Nat), (Q.filter fun q => k ≤ withinRadius ds L radius q)[i]? = some q →
        (answered (answers ds L k (some radius) Q))[i]? = some (q, (nnAnswer (ds.sqd q) L k (some radius)).getD []) := by
      intro i q hq; rw [hans, List.getElem?_map, hq]; rfl
    refine ⟨by rw [hm.numOk, hans, List.length_map], fun ho i q hq => hm.queries ho i _ (hget i q hq), fun i q hq => ?_⟩
    have hqf := List.mem_of_getElem? hq
    rw [List.mem_filter] at hqf
    obtain ⟨l, hl⟩ := Option.ne_none_iff_exists'.1 ((hsome q hqf.1).2 (by simpa using hqf.2))
    have h4 := hm.neighbors i _ (hget i q hq)
    rw [hl] at h4
    have hw := (nnAnswer_wellFormed (d := ds.sqd q) (radius := some radius) h.distinct h.kle q).2 l hl
    have hn := nnAnswer_nearest laws h.kpos h.distinct (hnum q hqf.1) (by intro r hr'; cases hr'; exact hr) hl
    exact ⟨l, ⟨hw.1, h4⟩, hw.2.1, fun x hx => ⟨hw.2.2 hx, hn.2.2 radius rfl x hx⟩, hn.1, hn.2.1⟩

/-- C23. Passing the query array as the output array for queries gives the same numbers, queries and neighbours as passing another array.
No assumption on the order of numbers is needed. -/
theorem C23_same_array {ds : DataSet F} {search : Option Arr} {queries : Arr} {L Q : List Nat} {k : Nat} {rs : Bool} {radius : F} {b nn nn' : Buf Nat}
    {w w₁ w₂ : World} {out out' : NNOut} (h : SearchInput ds search L (some queries) Q k .same nn w) (h' : SearchInput ds search L (some queries) Q k (.buf b) nn' w)
    (hrun : searchOnce (builtinSpi (some ds)) L.length search Q.length (some queries) k rs radius .same nn w = some (some out, w₁))
    (hrun' : searchOnce (builtinSpi (some ds)) L.length search Q.length (some queries) k rs radius (.buf b) nn' w = some (some out', w₂)) :
    out.numOk = out'.numOk ∧ (∀ i, i < out.numOk → out.outQ.get i = out'.outQ.get i ∧ out.outQ.get i ≠ none) ∧
      ∀ i, i < out.numOk * k → out.nn.get i = out'.nn.get i ∧ out.nn.get i ≠ none := by
  obtain ⟨r, w', h1, -, -, -, h3⟩ := searchOnce_spec (rs := rs) (radius := radius) h
  obtain ⟨r', w'', h1', -, -, -, h3'⟩ := searchOnce_spec (rs := rs) (radius := radius) h'
  rw [hrun] at h1; cases h1
  rw [hrun'] at h1'; cases h1'
  obtain ⟨-, -, hm⟩ := h3
  obtain ⟨-, -, hm'⟩ := h3'
  have hnum : out.numOk = out'.numOk := by rw [hm.numOk, hm'.numOk]
  refine ⟨hnum, fun i hi => ?_, fun i hi => ?_⟩
  · rw [hm.numOk] at hi
    rw [hm.queries (by simp) i _ (List.getElem?_eq_getElem hi), hm'.queries (by simp) i _ (List.getElem?_eq_getElem hi)]
    simp
  · have hk : 0 < k := h.kpos
    have hq : i / k < out.numOk := Nat.div_lt_of_lt_mul (by rwa [Nat.mul_comm])
    rw [hm.numOk] at hq
    have hlen := answered_length_of_mem (List.getElem_mem hq)
    have hj : i % k < ((answered (answers ds L k (if rs then some radius else none) Q))[i / k]).2.length := by rw [hlen]; exact Nat.mod_lt _ hk
    have hi' : i / k * k + i % k = i := Nat.div_add_mod' i k
    have e1 := hm.neighbors (i / k) _ (List.getElem?_eq_getElem hq) (i % k) _ (List.getElem?_eq_getElem hj)
    have e2 := hm'.neighbors (i / k) _ (List.getElem?_eq_getElem hq) (i % k) _ (List.getElem?_eq_getElem hj)
    rw [hi'] at e1 e2
    rw [e1, e2]; simp

/-- A complete use of the max distance search. -/
def maxOnce (spi : Spi F) (len : Nat) (search : Option Arr) (lenQ : Nat) (queries : Option Arr) (outI : Buf Nat) (outD : Buf F) : M (Option (Buf Nat × Buf F)) := do
  match ← spi.maxInit len search with
  | none => pure none
  | some o => do
    let r ← spi.maxDist o lenQ queries outI outD
    let _ ← spi.maxClose o
    pure r

/-- C24. For each query the max distance search stores the first search point at maximal distance and that distance, and nothing else is written.
It needs distances that are not NaN and above -1 (squared distances are never negative). -/
theorem C24_max_dist (laws : FloatLaws F) {ds : DataSet F} {search queries : Option Arr} {L Q : List Nat} {outI : Buf Nat} {outD : Buf F} {w : World}
    (hc : ds.Complete) (hs : ArrHolds search L) (hq : ArrHolds queries Q) (hL : ∀ x ∈ L, x < ds.n) (hQ : ∀ x ∈ Q, x < ds.n) (hne : L ≠ []) (hnd : L.Nodup)
    (hsl : ∀ i ∈ arrIds search, i ∈ w.live) (hql : ∀ i ∈ arrIds queries, i ∈ w.live)
    (hnum : ∀ q ∈ Q, ∀ x ∈ L, IsNum (ds.sqd q x) ∧ FloatOps.lt (FloatOps.negOne : F) (ds.sqd q x) = true)
    (hI : Q.length ≤ outI.len) (hD : Q.length ≤ outD.len) :
    ∃ r w', maxOnce (builtinSpi (some ds)) L.length search Q.length queries outI outD w = some (r, w') ∧ w'.live = w.live ∧
      match r with
      | none => ∃ i c, w.fails i c = true
      | some (oI, oD) =>
          (∀ (i q : Nat), Q[i]? = some q → ∃ x, Farthest (ds.sqd q) L x ∧ oI.get i = some x ∧ oD.get i = some (ds.dist q x)) ∧
          ∀ i, Q.length ≤ i → oI.get i = outI.get i ∧ oD.get i = outD.get i := by
  suffices H : WpM (maxOnce (builtinSpi (some ds)) L.length search Q.length queries outI outD) w fun r w' => w'.live = w.live ∧
      match r with
      | none => ∃ i c, w.fails i c = true
      | some (oI, oD) =>
          (∀ (i q : Nat), Q[i]? = some q → ∃ x, Farthest (ds.sqd q) L x ∧ oI.get i = some x ∧ oD.get i = some (ds.dist q x)) ∧
          ∀ i, Q.length ≤ i → oI.get i = outI.get i ∧ oD.get i = outD.get i by
    obtain ⟨r, w', h1, h2, h3⟩ := H
    exact ⟨r, w', h1, h2, h3⟩
  unfold maxOnce
  rw [wpM_bind]
  have h0 := searchInit_spec ds.n L.length search L w hs rfl hnd hL
  refine WpM.mono (x := (builtinSpi (some ds)).maxInit L.length search) h0 ?_
  rintro (_ | o) w1 ⟨a1, a2, a3⟩
  · rw [wpM_pure]
    exact ⟨a3.1, not_noFail (a3.2.resolve_right id)⟩
  · obtain ⟨own, hnn, a4⟩ := a3
    dsimp only
    rw [wpM_bind]
    show WpM (useK (o.id :: arrIds o.search ++ arrIds queries) (maxDistK ds o.len o.search Q.length queries outI outD) >>= fun r => pure (some r)) w1 _
    rw [wpM_bind, wpM_useK]
    obtain ⟨rfl, e1, e2, e3, e4, e5⟩ := id hnn
    refine ⟨fun i hi => ?_, ?_⟩
    · rw [a4]
      simp only [List.cons_append, List.mem_cons, List.mem_append] at hi
      simp only [Multiset.mem_add, Multiset.mem_singleton]
      rcases hi with rfl | hi | hi
      · exact Or.inl rfl
      · exact Or.inr (hsl i (by rw [e5]; exact hi))
      · exact Or.inr (hql i hi)
    · have := maxDistK_spec laws hc e1 hq hL hQ hne hnd hnum hI hD
      rw [e2] at this
      refine this.mono ?_
      rintro ⟨oI, oD⟩ ⟨-, -, b1, b2⟩
      rw [wpM_pure, wpM_bind]
      have h2 := searchClose_spec ds.n o L {o.id} _ w1 w.live hnn a4
      refine WpM.mono (x := (builtinSpi (some ds)).maxClose o) h2 ?_
      rintro _ w3 ⟨c1, c2, c3, -⟩
      rw [wpM_pure]
      exact ⟨c3, b1, b2⟩

/-- C25. The distance matrix holds the distances of all pairs of the given points in row-major upper-triangular order; nothing else is written. -/
theorem C25_dist_matrix {ds : DataSet F} {points : Option Arr} {L : List Nat} {out : Buf F} {w : World} (hc : ds.Complete) (hp : ArrHolds points L)
    (hL : ∀ x ∈ L, x < ds.n) (hl : ∀ i ∈ arrIds points, i ∈ w.live) (hlen : L.length * (L.length - 1) / 2 ≤ out.len) :
    ∃ out', (builtinSpi (some ds)).distMatrix L.length points out w = some (some out', w) ∧ out'.len = out.len ∧
      (∀ (i a b : Nat), (upperPairs L)[i]? = some (a, b) → out'.get i = some (ds.dist a b)) ∧
      ∀ i, L.length * (L.length - 1) / 2 ≤ i → out'.get i = out.get i := by
  obtain ⟨out', h1, h2, h3, h4⟩ := distMatrixK_spec hc hp hL (out := out) (by rw [length_upperPairs]; exact hlen)
  refine ⟨out', ?_, h2, fun i a b h => h3 i (a, b) h, fun i hi => h4 i (by rw [length_upperPairs]; exact hi)⟩
  have : WpM ((builtinSpi (some ds)).distMatrix L.length points out) w fun r w' => r = some out' ∧ w' = w := by
    show WpM (useK (arrIds points) (distMatrixK ds L.length points out) >>= fun o => pure (some o)) w _
    rw [wpM_bind, wpM_useK, h1, wp_some, wpM_pure]
    exact ⟨hl, rfl, rfl⟩
  obtain ⟨r, w', e, rfl, rfl⟩ := this
  exact e

/-- The number of entries of the matrix is that of the pairs. -/
theorem C25_dist_matrix_size (L : List Nat) : (upperPairs L).length = L.length * (L.length - 1) / 2 := length_upperPairs L

/-- C25. Distance rows hold the distances of all queries to all columns, row by row; nothing else is written. -/
theorem C25_dist_rows {ds : DataSet F} {queries cols : Option Arr} {Q C : List Nat} {out : Buf F} {w : World} (hc : ds.Complete) (hq : ArrHolds queries Q)
    (hcol : ArrHolds cols C) (hQ : ∀ x ∈ Q, x < ds.n) (hC : ∀ x ∈ C, x < ds.n) (hlq : ∀ i ∈ arrIds queries, i ∈ w.live) (hlc : ∀ i ∈ arrIds cols, i ∈ w.live)
    (hlen : Q.length * C.length ≤ out.len) :
    ∃ out' w', (builtinSpi (some ds)).distRows Q.length queries C.length cols out w = some (some out', w') ∧ w'.live = w.live ∧ out'.len = out.len ∧
      (∀ (i j q c : Nat), Q[i]? = some q → C[j]? = some c → out'.get (i * C.length + j) = some (ds.dist q c)) ∧
      ∀ i, Q.length * C.length ≤ i → out'.get i = out.get i := by
  obtain ⟨r, w', h1, h2, h3, h4, out', rfl, h5, h6, h7⟩ := distRows_spec ds hc out w hq hcol hQ hC hlq hlc hlen
  exact ⟨out', w', h1, h4, h5, h6, h7⟩

/-! ### Examples: six points on a line at 0, 1, 3, 7, 8, 20 -/

/-- The hypotheses of the search theorems are met: queries 2, 5, 0 in all points, two neighbours. -/
theorem lineSearch_input (oq : OutQ) (ho : oq = .null ∨ 3 ≤ oq.len (some ⟨[7], Buf.ofList [2, 5, 0]⟩)) :
    SearchInput lineData none (List.range 6) (some ⟨[7], Buf.ofList [2, 5, 0]⟩) [2, 5, 0] 2 oq (Buf.raw 6) (sampleWorld [7]) where
  complete := lineData_complete
  searchHolds := rfl
  queryHolds := fun i x h => by simpa using h
  distinct := List.nodup_range
  searchRange := by decide
  queryRange := by decide
  searchLive := by decide
  queryLive := by decide
  someQuery := by decide
  kpos := by decide
  kle := by decide
  room := by decide
  oroom := ho
  same := by simp

example : SearchInput lineData none (List.range 6) (some ⟨[7], Buf.ofList [2, 5, 0]⟩) [2, 5, 0] 2 .same (Buf.raw 6) (sampleWorld [7]) :=
  lineSearch_input .same (Or.inr (by decide))

example : (∀ q ∈ [2, 5, 0], ∀ x ∈ List.range 6, IsNum (lineData.sqd q x)) ∧ IsNum (FloatOps.mul (3 : Int) 3) := ⟨fun q _ x _ => int_isNum _, int_isNum _⟩

example : ∀ q ∈ [2, 5, 0], ∀ x ∈ List.range 6, IsNum (lineData.sqd q x) ∧ FloatOps.lt (FloatOps.negOne : Int) (lineData.sqd q x) = true := by decide

/-- What a search stored: queries and neighbours. -/
def nnContents (k : Nat) (r : Option (Option NNOut × World)) : Option (List Nat × List Nat) :=
  match r with
  | some (some out, _) => do
    let q ← out.outQ.read out.numOk
    let l ← out.nn.read (out.numOk * k)
    pure (q, l)
  | _ => none

-- Tests of the model (not proofs).
#guard nnContents 2 (searchOnce (builtinSpi (some lineData)) 6 none 3 (some ⟨[7], Buf.ofList [2, 5, 0]⟩) 2 false 0 (.buf (Buf.raw 3)) (Buf.raw 6) (sampleWorld [7])) ==
  some ([2, 5, 0], [2, 1, 5, 4, 0, 1])
#guard nnContents 2 (searchOnce (builtinSpi (some lineData)) 6 none 3 (some ⟨[7], Buf.ofList [2, 5, 0]⟩) 2 true 3 .same (Buf.raw 6) (sampleWorld [7])) ==
  some ([2, 0], [2, 1, 0, 1])

end Scc
