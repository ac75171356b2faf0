/-
Model of src/nng_core.c. `assert`s are not executed. Whether `SCC_STABLE_NNG` is defined is the parameter `Cfg.stableNng`.
-/
import Mathlib.Data.List.Sort
import Verif.Model.Options

namespace Scc

variable {F : Type} [FloatOps F]

/-! ### Nearest neighbour digraphs -/

/-- What `iscc_make_nng` produces: the digraph, the number of queries with enough neighbours, and the array of these queries (meaningless unless an
array was supplied for them). -/
structure NngOut where
  nng : Digraph
  numOk : Nat
  outQ : Buf Nat

/-- Row ends when there is a list of answered queries, src/nng_core.c:752-774. `wt` is the position of `write_tail_ptr`. -/
def tailsByQueries (k numOk : Nat) (q tail : Buf Nat) : Option (Buf Nat × Nat) := do
  let (tail, wt, _) ← forLt 0 numOk (tail, 1, 0) fun j (tail, wt, i) => do
    let p ← q.get j
    let (tail, wt) ← forLt i p (tail, wt) fun _ (tail, wt) => do
      let t ← tail.get (wt - 1)
      let tail ← tail.set wt t
      pure (tail, wt + 1)
    let t ← tail.get (wt - 1)
    let tail ← tail.set wt (t + k)
    pure (tail, wt + 1, max i p + 1)
  pure (tail, wt)

/-- Row ends when every point is an answered query, src/nng_core.c:775-782. -/
def tailsAll (k lenQ : Nat) (tail : Buf Nat) : Option (Buf Nat × Nat) :=
  forLt 0 lenQ (tail, 1) fun _ (tail, wt) => do
    let t ← tail.get (wt - 1)
    let tail ← tail.set wt (t + k)
    pure (tail, wt + 1)

/-- The choice between the two, src/nng_core.c:752-782. -/
def tailRows (k lenQ numOk : Nat) (okq : Option (Buf Nat)) (tail : Buf Nat) : Option (Buf Nat × Nat) :=
  match okq with
  | some q => tailsByQueries k numOk q tail
  | none => tailsAll k lenQ tail

/-- Writing the row array, src/nng_core.c:747-786. -/
def writeTails (n k lenQ numOk : Nat) (okq : Option (Buf Nat)) (tail : Buf Nat) : Option (Buf Nat) := do
  let tail ← tail.set 0 0
  let (tail, wt) ← tailRows k lenQ numOk okq tail
  forLt wt (n + 1) tail fun i tail => do
    let t ← tail.get (i - 1)
    tail.set i t

/-- The array for the answered queries, src/nng_core.c:711-723: the supplied one, or a fresh one. -/
def internalOut (rs : Bool) (outQ : OutQ) (lenQ : Nat) : M (Except ErrorCode (OutQ × Option (Blk Nat))) := do
  if rs then
    match outQ with
    | .null => do
      match ← alloc (Buf.raw lenQ : Buf Nat) with
      | none => fail .noMemory "src/nng_core.c" 719
      | some b => pure (.ok (.buf b.buf, some b))
    | .same => pure (.ok (.same, none))
    | .buf b => pure (.ok (.buf b, none))
  else pure (.ok (.null, none))

/-- Shrinking the arc storage, src/nng_core.c:794-805. -/
def shrinkNng (cfg : Cfg) (d : Digraph) (lenQ k numOk : Nat) (outQ : Buf Nat) : M (Except ErrorCode NngOut) := do
  if numOk < lenQ then do
    let (ec, d) ← changeArcStorage cfg d ((numOk * k) % (cfg.sizeMax + 1))
    if ec ≠ .ok then do
      let _ ← freeDigraph d
      pure (.error ec)
    else pure (.ok ⟨d, numOk, outQ⟩)
  else pure (.ok ⟨d, numOk, outQ⟩)

/-- `iscc_make_nng_from_search_object`, src/nng_core.c:694-806. -/
def makeNngFromSearch (cfg : Cfg) (spi : Spi F) (o : spi.NN) (n lenQ : Nat) (queries : Option Arr) (k : Nat) (rs : Bool) (radius : F) (outQ : OutQ) :
    M (Except ErrorCode NngOut) := do
  match ← internalOut rs outQ lenQ with
  | .error ec => pure (.error ec)
  | .ok (dq, internal) => do
    match ← initDigraph cfg n ((lenQ * k) % (cfg.sizeMax + 1)) with
    | .error ec => do
      freePtr internal
      pure (.error ec)
    | .ok d => do
      touch (d.ids ++ ptrIds internal)
      match ← spi.nnSearch o lenQ queries k rs radius dq (ptrBuf d.head) with
      | none => do
        freePtr internal
        let _ ← freeDigraph d
        fail .distSearch "src/nng_core.c" 744
      | some r => do
        let tail ← useK (d.ids ++ ptrIds internal ++ arrIds queries)
          (writeTails n k lenQ r.numOk (if rs then some r.outQ else queries.map Arr.buf) (ptrBuf d.tail))
        freePtr internal
        shrinkNng cfg { d with head := ptrSet d.head r.nn, tail := ptrSet d.tail tail } lenQ k r.numOk r.outQ

/-- `iscc_make_nng`, src/nng_core.c:641-691. -/
def makeNng (cfg : Cfg) (spi : Spi F) (n lenS : Nat) (search : Option Arr) (lenQ : Nat) (queries : Option Arr) (k : Nat) (rs : Bool) (radius : F)
    (outQ : OutQ) : M (Except ErrorCode NngOut) := do
  match ← spi.nnInit lenS search with
  | none => fail .distSearch "src/nng_core.c" 667
  | some o => do
    match ← makeNngFromSearch cfg spi o n lenQ queries k rs radius outQ with
    | .error ec => do
      let _ ← spi.nnClose o
      pure (.error ec)
    | .ok r => do
      if ← spi.nnClose o then pure (.ok r)
      else do
        let _ ← freeDigraph r.nng
        fail .distSearch "src/nng_core.c" 687

/-- The treatment of one search point in `iscc_ensure_self_match`, src/nng_core.c:827-832 and 838-843: if the point has arcs and none to itself, the last
one is redirected. -/
def selfMatchPoint (tail : Buf Nat) (p : Nat) (head : Buf Nat) : Option (Buf Nat) := do
  let start ← tail.get p
  let stop ← tail.get (p + 1)
  if start = stop then pure head
  else if stop < start then none
  else do
    match ← forLtB start stop () (fun i _ => do
        let a ← head.get i
        if a = p then pure (Ctl.stop ()) else pure (Ctl.next ())) with
    | .stop _ => pure head
    | .next _ => head.set (stop - 1) p

/-- `iscc_ensure_self_match`, src/nng_core.c:809-845. -/
def selfMatch (lenS : Nat) (search : Option Arr) (head tail : Buf Nat) : Option (Buf Nat) :=
  forLt 0 lenS head fun s head => do
    let p ← idxGet search s
    selfMatchPoint tail p head

/-- `qsort` on point indices, with the comparison `iscc_compare_PointIndex` of src/nng_core.c:1046-1051 and src/nng_batch_clustering.c:177-182: the `count`
values from position `start` on are put in ascending order. The values are compared as numbers and equal ones cannot be told apart, so the result does not
depend on the algorithm that the C library uses. -/
def qsortAt (start count : Nat) (b : Buf Nat) : Option (Buf Nat) := do
  let l ← (b.drop start).read count
  forLt 0 count b fun i b => do
    let x ← (l.insertionSort (· ≤ ·))[i]?
    b.set (start + i) x

/-- The loop of `iscc_sort_nng`, src/nng_core.c:1056-1061. -/
def sortRows (n : Nat) (tail head : Buf Nat) : Option (Buf Nat) :=
  forLt 0 n head fun v head => do
    let hi ← tail.get (v + 1)
    let lo ← tail.get v
    if hi < lo then none
    else if 1 < hi - lo then qsortAt lo (hi - lo) head
    else pure head

/-- `iscc_sort_nng`, src/nng_core.c:1054-1062, in builds that call it: src/nng_core.c:177-179 and 348-350. -/
def sortNng (cfg : Cfg) (d : Digraph) : M Digraph :=
  if cfg.stableNng then do
    let head ← useK d.ids (sortRows d.n (ptrBuf d.tail) (ptrBuf d.head))
    pure { d with head := ptrSet d.head head }
  else pure d

/-- The end of the two functions that make the digraph: `iscc_sort_nng` unless there was an error. -/
def sortResult (cfg : Cfg) (r : Except ErrorCode Digraph) : M (Except ErrorCode Digraph) :=
  match r with
  | .error ec => pure (.error ec)
  | .ok d => do
    let d ← sortNng cfg d
    pure (.ok d)

/-- `iscc_get_nng_with_size_constraint` up to the sorting of the arcs, src/nng_core.c:125-175. -/
def nngSizeArcs (cfg : Cfg) (spi : Spi F) (n S lenPrimary : Nat) (primary : Option Arr) (rs : Bool) (radius : F) : M (Except ErrorCode Digraph) := do
  match ← makeNng cfg spi n n none (if primary.isNone then n else lenPrimary) primary S rs radius .null with
  | .error ec => pure (.error ec)
  | .ok r => do
    if ← useK r.nng.ids (digraphIsEmpty r.nng) then do
      let _ ← freeDigraph r.nng
      fail .noSolution "src/nng_core.c" 167 (some "Infeasible radius constraint.")
    else do
      let head ← useK r.nng.ids (selfMatch n none (ptrBuf r.nng.head) (ptrBuf r.nng.tail))
      let (ec, d) ← deleteLoops cfg { r.nng with head := ptrSet r.nng.head head }
      if ec ≠ .ok then do
        let _ ← freeDigraph d
        pure (.error ec)
      else pure (.ok d)

/-- `iscc_get_nng_with_size_constraint`, src/nng_core.c:125-182. -/
def nngWithSize (cfg : Cfg) (spi : Spi F) (n S lenPrimary : Nat) (primary : Option Arr) (rs : Bool) (radius : F) : M (Except ErrorCode Digraph) := do
  let r ← nngSizeArcs cfg spi n S lenPrimary primary rs radius
  sortResult cfg r

/-! ### Type constraints -/

/-- `iscc_TypeCount`, src/nng_core.c:43-48. The pointers `type_groups[i]` into `point_store` are offsets. -/
structure TypeCount where
  sum : Nat
  sizes : Blk Nat
  store : Blk Nat
  groups : Blk Nat

/-- Counting the points of each type, src/nng_core.c:877-880. -/
def countTypes (n : Nat) (labels sizes : Buf Nat) : Option (Buf Nat) :=
  forLt 0 n sizes fun i sizes => do
    let t ← labels.get i
    let c ← sizes.get t
    sizes.set t (c + 1)

/-- Comparing with the type constraints and adding them up, src/nng_core.c:882-890. The result is `none` when some type has too few points. -/
def sumTypes (numTypes : Nat) (tcs sizes : Buf Nat) : Option (Option Nat) := do
  match ← forLtB 0 numTypes 0 (fun i sum => do
      let s ← sizes.get i
      let c ← tcs.get i
      if s < c then pure (Ctl.stop ()) else pure (Ctl.next (u32 (sum + c)))) with
  | .stop _ => pure none
  | .next sum => pure (some sum)

/-- The ends of the type groups, src/nng_core.c:899-902. -/
def groupEnds (numTypes : Nat) (sizes groups : Buf Nat) : Option (Buf Nat) := do
  let s0 ← sizes.get 0
  let groups ← groups.set 0 s0
  forLt 1 numTypes groups fun i groups => do
    let g ← groups.get (i - 1)
    let s ← sizes.get i
    groups.set i (g + s)

/-- Filling the type groups from behind, src/nng_core.c:904-909. -/
def fillGroups (n : Nat) (labels store groups : Buf Nat) : Option (Buf Nat × Buf Nat) :=
  forLt 0 n (store, groups) fun i (store, groups) => do
    let t ← labels.get i
    let g ← groups.get t
    if g = 0 then none
    else do
      let groups ← groups.set t (g - 1)
      let store ← store.set (g - 1) i
      pure (store, groups)

/-- `iscc_type_count`, src/nng_core.c:848-912. -/
def typeCount (n S numTypes : Nat) (tcs labels : Buf Nat) : M (Except ErrorCode TypeCount) := do
  let sizes ← alloc (Buf.fill numTypes 0 : Buf Nat)
  let store ← alloc (Buf.raw n : Buf Nat)
  let groups ← alloc (Buf.raw numTypes : Buf Nat)
  match sizes, store, groups with
  | some sizes, some store, some groups => do
    let sz ← useK [sizes.id] (countTypes n labels sizes.buf)
    match ← useK [sizes.id] (sumTypes numTypes tcs sz) with
    | none => do
      freeId sizes.id
      freeId store.id
      freeId groups.id
      fail .noSolution "src/nng_core.c" 887 (some "Fewer data points than type size constraint.")
    | some sum =>
      if S < sum then do
        freeId sizes.id
        freeId store.id
        freeId groups.id
        fail .invalidInput "src/nng_core.c" 896 (some "Type constraint cannot be larger than overall size constraint.")
      else do
        let gr ← useK [sizes.id, groups.id] (groupEnds numTypes sz groups.buf)
        let (st, gr) ← useK [store.id, groups.id] (fillGroups n labels store.buf gr)
        pure (.ok ⟨sum, ⟨sizes.id, sz⟩, ⟨store.id, st⟩, ⟨groups.id, gr⟩⟩)
  | sizes, store, groups => do
    freePtr sizes
    freePtr store
    freePtr groups
    fail .noMemory "src/nng_core.c" 874

/-- Variables of the loop over types: the digraphs so far (the used part of `nng_by_type`), `num_queries` and `seedable`. -/
structure TypeSt where
  dgs : List Digraph
  numQ : Nat
  seedable : Option (Blk Nat)

/-- `seedable_const`, src/nng_core.c:215-232: the array `seedable` or, when that is NULL, the primary points. -/
def queriesOf (seedable : Option (Blk Nat)) (primary : Option Arr) : Option Arr :=
  match seedable with
  | some b => some ⟨[b.id], b.buf⟩
  | none => primary

/-- `seedable` as output array: the same as the query array unless it is NULL. -/
def seedOut (seedable : Option (Blk Nat)) : OutQ := if seedable.isSome then .same else .null

/-- Filling `seedable`, src/nng_core.c:222-228. -/
def fillSeedable (n numQ : Nat) (primary : Option Arr) (b : Buf Nat) : Option (Buf Nat) :=
  match primary with
  | none => forLt 0 n b fun i b => b.set i i
  | some a => forLt 0 numQ b fun i b => do
    let x ← a.buf.get i
    b.set i x

/-- `seedable`, src/nng_core.c:215-232. -/
def initSeedable (n numQ : Nat) (primary : Option Arr) (rs : Bool) : M (Except ErrorCode (Option (Blk Nat))) := do
  if rs then do
    match ← alloc (Buf.raw numQ : Buf Nat) with
    | none => fail .noMemory "src/nng_core.c" 220
    | some b => do
      let c ← useK (b.id :: arrIds primary) (fillSeedable n numQ primary b.buf)
      pure (.ok (some ⟨b.id, c⟩))
  else pure (.ok none)

/-- The position of a type's group, src/nng_core.c:257-258. -/
def groupPos (tc : TypeCount) (i : Nat) : Option (Nat × Nat) := do
  let s ← tc.sizes.buf.get i
  let g ← tc.groups.buf.get i
  pure (s, g)

/-- Body of the loop over types, src/nng_core.c:253-279. Leaving the loop hands back the error. -/
def typeNngStep (cfg : Cfg) (spi : Spi F) (n : Nat) (tcs : Buf Nat) (tc : TypeCount) (primary : Option Arr) (rs : Bool) (radius : F) (st : TypeSt)
    (i : Nat) : M (Ctl TypeSt (ErrorCode × TypeSt)) := do
  let c ← useK [] (tcs.get i)
  if 0 < c then do
    let (len, g) ← useK [tc.sizes.id, tc.groups.id] (groupPos tc i)
    match ← makeNng cfg spi n len (some ⟨[tc.store.id], tc.store.buf.drop g⟩) st.numQ (queriesOf st.seedable primary) c rs radius
        (seedOut st.seedable) with
    | .error ec => pure (.stop (ec, st))
    | .ok r => do
      if ← useK r.nng.ids (digraphIsEmpty r.nng) then do
        let e ← mkErr .noSolution "src/nng_core.c" 272 (some "Infeasible radius constraint.")
        pure (.stop (e, ⟨st.dgs ++ [r.nng], r.numOk, ptrSet st.seedable r.outQ⟩))
      else do
        let head ← useK (tc.store.id :: r.nng.ids)
          (selfMatch len (some ⟨[tc.store.id], tc.store.buf.drop g⟩) (ptrBuf r.nng.head) (ptrBuf r.nng.tail))
        pure (.next ⟨st.dgs ++ [{ r.nng with head := ptrSet r.nng.head head }], r.numOk, ptrSet st.seedable r.outQ⟩)
  else pure (.next st)

/-- `free` of the digraphs, src/nng_core.c:294-296. -/
def freeDigraphs (dgs : List Digraph) : M Unit :=
  dgs.foldlM (fun _ d => do let _ ← freeDigraph d; pure ()) ()

/-- Union of digraphs restricted to the queries that are left, src/nng_core.c:286-290 and 334. -/
def unionQueries (cfg : Cfg) (dgs : List Digraph) (numQ : Nat) (queries : Option Arr) (keepLoops : Bool) : M (Except ErrorCode Digraph) :=
  match queries with
  | none => unionAndDelete cfg dgs none keepLoops
  | some a => do
    let ts ← useK a.ids (a.buf.read numQ)
    unionAndDelete cfg dgs (some ts) keepLoops

/-- Removing the arcs already there, src/nng_core.c:327-331. -/
def extraArcs (cfg : Cfg) (m d : Digraph) (additional : Nat) : M (ErrorCode × Digraph) := do
  if ← useK m.ids (digraphIsEmpty m) then do
    let e ← mkErr .noSolution "src/nng_core.c" 328 (some "Infeasible radius constraint.")
    pure (e, m)
  else digraphDifference cfg m d additional

/-- The general size constraint on top of the type constraints, src/nng_core.c:305-346. -/
def addGeneral (cfg : Cfg) (spi : Spi F) (n S sum : Nat) (primary : Option Arr) (rs : Bool) (radius : F) (numQ : Nat) (seedable : Option (Blk Nat))
    (d : Digraph) : M (Except ErrorCode Digraph) := do
  if sum < S then do
    match ← makeNng cfg spi n n none numQ (queriesOf seedable primary) S rs radius (seedOut seedable) with
    | .error ec => do
      freePtr seedable
      let _ ← freeDigraph d
      pure (.error ec)
    | .ok r => do
      let (ec, m) ← extraArcs cfg r.nng d (S - sum)
      if ec ≠ .ok then do
        let _ ← freeDigraph d
        let _ ← freeDigraph m
        freePtr seedable
        pure (.error ec)
      else do
        let u ← unionQueries cfg [d, m] r.numOk (queriesOf (ptrSet seedable r.outQ) primary) false
        let _ ← freeDigraph d
        let _ ← freeDigraph m
        freePtr seedable
        pure u
  else do
    freePtr seedable
    pure (.ok d)

/-- The union over types and the clean-up, src/nng_core.c:284-303. -/
def combineTypes (cfg : Cfg) (spi : Spi F) (n S sum arrId : Nat) (primary : Option Arr) (rs : Bool) (radius : F)
    (r : Ctl TypeSt (ErrorCode × TypeSt)) : M (Except ErrorCode Digraph) :=
  match r with
  | .stop (ec, st) => do
    freeDigraphs st.dgs
    freeId arrId
    freePtr st.seedable
    pure (.error ec)
  | .next st => do
    touch [arrId]
    let u ← unionQueries cfg st.dgs st.numQ (queriesOf st.seedable primary) (decide (sum < S))
    freeDigraphs st.dgs
    freeId arrId
    match u with
    | .error ec => do
      freePtr st.seedable
      pure (.error ec)
    | .ok d => addGeneral cfg spi n S sum primary rs radius st.numQ st.seedable d

/-- `iscc_get_nng_with_type_constraint` up to the sorting of the arcs, src/nng_core.c:185-346. -/
def nngTypeArcs (cfg : Cfg) (spi : Spi F) (n S numTypes : Nat) (tcs labels : Buf Nat) (lenPrimary : Nat) (primary : Option Arr) (rs : Bool) (radius : F) :
    M (Except ErrorCode Digraph) := do
  match ← initSeedable n (if primary.isNone then n else lenPrimary) primary rs with
  | .error ec => pure (.error ec)
  | .ok seedable => do
    match ← alloc (Buf.raw numTypes : Buf Unit) with
    | none => do
      freePtr seedable
      fail .noMemory "src/nng_core.c" 237
    | some arr => do
      match ← typeCount n S numTypes tcs labels with
      | .error ec => do
        freePtr seedable
        freeId arr.id
        pure (.error ec)
      | .ok tc => do
        let r ← foldBM (typeNngStep cfg spi n tcs tc primary rs radius) ⟨[], if primary.isNone then n else lenPrimary, seedable⟩ (List.range numTypes)
        freeId tc.sizes.id
        freeId tc.store.id
        freeId tc.groups.id
        combineTypes cfg spi n S tc.sum arr.id primary rs radius r

/-- `iscc_get_nng_with_type_constraint`, src/nng_core.c:185-353. -/
def nngWithTypes (cfg : Cfg) (spi : Spi F) (n S numTypes : Nat) (tcs labels : Buf Nat) (lenPrimary : Nat) (primary : Option Arr) (rs : Bool) (radius : F) :
    M (Except ErrorCode Digraph) := do
  let r ← nngTypeArcs cfg spi n S numTypes tcs labels lenPrimary primary rs radius
  sortResult cfg r

/-! ### Estimating the radius -/

/-- The seed and its arcs, src/nng_core.c:380-382: the seed, the position of its first arc and the number of its arcs. -/
def seedArcs (seeds tail : Buf Nat) (s : Nat) : Option (Nat × Nat × Nat) := do
  let seed ← seeds.get s
  let hi ← tail.get (seed + 1)
  let lo ← tail.get seed
  if hi < lo then none else pure (seed, lo, hi - lo)

/-- Sum of the distances to the neighbours other than the seed, and their number; src/nng_core.c:398-405. -/
def sumDists (seed lo num : Nat) (head : Buf Nat) (dists : Buf F) : Option (F × Nat) :=
  forLt 0 num (FloatOps.zero, 0) fun i (tmp, cnt) => do
    let a ← head.get (lo + i)
    if a ≠ seed then do
      let d ← dists.get i
      pure (FloatOps.add tmp d, cnt + 1)
    else pure (tmp, cnt)

/-- Body of the loop over seeds, src/nng_core.c:380-410. The state is `sampled`, `sum_dist` and the contents of the scratch array. -/
def estimateStep (spi : Spi F) (sr : SeedResult) (nng : Digraph) (scratch : Nat) (st : Nat × F × Buf F) (s : Nat) : M (Ctl (Nat × F × Buf F) ErrorCode) := do
  let (seed, lo, num) ← useK (ptrIds sr.seeds ++ nng.ids) (seedArcs (ptrBuf sr.seeds) (ptrBuf nng.tail) s)
  touch [scratch]
  match ← spi.distRows 1 (some ⟨[], Buf.ofList [seed]⟩) num (some ⟨ptrIds nng.head, (ptrBuf nng.head).drop lo⟩) st.2.2 with
  | none => do
    freeId scratch
    let e ← mkErr .distSearch "src/nng_core.c" 395
    pure (.stop e)
  | some dists => do
    let (tmp, cnt) ← useK (scratch :: nng.ids) (sumDists seed lo num (ptrBuf nng.head) dists)
    pure (.next (st.1 + 1, FloatOps.add st.2.1 (FloatOps.div tmp (FloatOps.ofNat cnt)), dists))

/-- The seeds that are sampled, src/nng_core.c:371-372 and 379: `0, step, 2 step, ...` below `count`. -/
def sampleIndices (count : Nat) : List Nat :=
  let step := if 1000 < count then count / 1000 else 1
  List.range' 0 ((count + step - 1) / step) step

/-- `iscc_estimate_avg_seed_dist`, src/nng_core.c:356-418. -/
def estimateAvg (spi : Spi F) (sr : SeedResult) (nng : Digraph) (S : Nat) : M (Except ErrorCode F) := do
  match ← alloc (Buf.raw S : Buf F) with
  | none => fail .noMemory "src/nng_core.c" 377
  | some b => do
    match ← foldBM (estimateStep spi sr nng b.id) (0, FloatOps.zero, b.buf) (sampleIndices sr.count) with
    | .stop ec => pure (.error ec)
    | .next (sampled, sum, _) => do
      freeId b.id
      pure (.ok (FloatOps.div sum (FloatOps.ofNat sampled)))

/-! ### Assigning labels -/

/-- `iscc_assign_seeds_and_neighbors`, src/nng_core.c:915-955: the new labels and the number of labelled points. -/
def assignSeeds (cfg : Cfg) (n count : Nat) (seeds head tail : Buf Nat) (labels : Buf Int) : Option (Buf Int × Nat) := do
  let labels ← forLt 0 n labels fun i labels => labels.set i cfg.na
  forNe 0 count (labels, 0) fun s (labels, num) => do
    let seed ← seeds.get s
    let labels ← rowLoop head tail seed labels fun a labels => labels.set a (s : Int)
    let hi ← tail.get (seed + 1)
    let lo ← tail.get seed
    let l ← labels.get seed
    let labels ← labels.set seed (s : Int)
    pure (labels, num + (hi - lo) + if l = cfg.na then 1 else 0)

/-- The flags of unassigned points, src/nng_core.c:967-969. -/
def unassignedFlags (cfg : Cfg) (n : Nat) (labels : Buf Int) (scratch : Buf Bool) : Option (Buf Bool) :=
  forLt 0 n scratch fun i scratch => do
    let l ← labels.get i
    scratch.set i (decide (l = cfg.na))

/-- The search for an assigned neighbour of `i`, src/nng_core.c:975-984: the first one, if any. -/
def firstAssigned (head tail : Buf Nat) (scratch : Buf Bool) (i : Nat) : Option (Option Nat) := do
  let stop ← tail.get (i + 1)
  let start ← tail.get i
  if stop < start then none
  else do
    match ← forLtB start stop () (fun j _ => do
        let a ← head.get j
        let u ← scratch.get a
        if !u then pure (Ctl.stop a) else pure (Ctl.next ())) with
    | .stop a => pure (some a)
    | .next _ => pure none

/-- The main loop of `iscc_assign_by_nng`, src/nng_core.c:971-986. -/
def assignByNngK (n : Nat) (head tail : Buf Nat) (scratch : Buf Bool) (labels : Buf Int) : Option (Buf Int × Nat) :=
  forLt 0 n (labels, 0) fun i (labels, num) => do
    let u ← scratch.get i
    if u then do
      match ← firstAssigned head tail scratch i with
      | some a => do
        let l ← labels.get a
        let labels ← labels.set i l
        pure (labels, num + 1)
      | none => pure (labels, num)
    else pure (labels, num)

/-- `iscc_assign_by_nng`, src/nng_core.c:958-991: the new labels and the returned number. When the allocation fails, the function returns the
error code `SCC_ER_NO_MEMORY`, that is 3, as the number of assigned points, and the caller takes it as such; the request is counted among those the code does not handle. -/
def assignByNng (cfg : Cfg) (n : Nat) (nng : Digraph) (label : Option (Blk Int)) : M (Buf Int × Nat) := do
  match ← alloc (Buf.raw n : Buf Bool) false with
  | none => do
    let _ ← mkErr .noMemory "src/nng_core.c" 966
    pure (ptrBuf label, 3)
  | some b => do
    let scratch ← useK (b.id :: ptrIds label) (unassignedFlags cfg n (ptrBuf label) b.buf)
    let r ← useK (b.id :: nng.ids ++ ptrIds label) (assignByNngK n (ptrBuf nng.head) (ptrBuf nng.tail) scratch (ptrBuf label))
    freeId b.id
    pure r

/-- Copying the labels of the found neighbours, src/nng_core.c:1032-1036. -/
def copyFromNN (numOk : Nat) (okq nn : Buf Nat) (labels : Buf Int) : Option (Buf Int) :=
  forLt 0 numOk labels fun i labels => do
    let x ← nn.get i
    let l ← labels.get x
    let q ← okq.get i
    labels.set q l

/-- `iscc_assign_by_nn_search`, src/nng_core.c:994-1041: the error code, the new labels and the new contents of `to_assign`. The result of the allocation is not
checked by the code. -/
def assignBySearch (spi : Spi F) (o : spi.NN) (label : Option (Blk Int)) (num : Nat) (ta : Blk Nat) (rs : Bool) (radius : F) :
    M (ErrorCode × Buf Int × Buf Nat) := do
  let nnb ← alloc (Buf.raw num : Buf Nat) false
  touch (ta.id :: ptrIds nnb)
  match ← spi.nnSearch o num (some ⟨[ta.id], ta.buf⟩) 1 rs radius (if rs then .same else .null) (ptrBuf nnb) with
  | none => do
    freePtr nnb
    let e ← mkErr .distSearch "src/nng_core.c" 1024
    pure (e, ptrBuf label, ta.buf)
  | some r => do
    let l ← useK (ta.id :: ptrIds nnb ++ ptrIds label) (copyFromNN r.numOk (if rs then r.outQ else ta.buf) r.nn (ptrBuf label))
    freePtr nnb
    pure (.ok, l, if rs then r.outQ else ta.buf)

/-- Listing the assigned points, src/nng_core.c:469-477. -/
def listAssigned (cfg : Cfg) (n : Nat) (labels : Buf Int) (b : Buf Nat) : Option (Buf Nat) := do
  let (b, _) ← forLt 0 n (b, 0) fun i (b, w) => do
    let l ← labels.get i
    if l ≠ cfg.na then do
      let b ← b.set w i
      pure (b, w + 1)
    else pure (b, w)
  pure b

/-- Listing the unassigned points among the given ones, src/nng_core.c:554-565 and 600-603. Every candidate is written, also one
that is then not counted. -/
def listUnassigned (cfg : Cfg) (len : Nat) (pts : Option (Buf Nat)) (labels : Buf Int) (ta : Buf Nat) : Option (Buf Nat × Nat) :=
  forLt 0 len (ta, 0) fun i (ta, num) => do
    let p ← idxGet (pts.map fun b => ⟨[], b⟩) i
    let ta ← ta.set num p
    let l ← labels.get p
    pure (ta, num + if l = cfg.na then 1 else 0)

/-- `seed_or_neighbor`, src/nng_core.c:462-479. -/
def initAssigned (cfg : Cfg) (n num : Nat) (need : Bool) (label : Option (Blk Int)) : M (Except ErrorCode (Option (Blk Nat))) := do
  if need then do
    match ← alloc (Buf.raw num : Buf Nat) with
    | none => fail .noMemory "src/nng_core.c" 467
    | some b => do
      let c ← useK (b.id :: ptrIds label) (listAssigned cfg n (ptrBuf label) b.buf)
      pure (.ok (some ⟨b.id, c⟩))
  else pure (.ok none)

/-- Initialising a search object if it is needed, src/nng_core.c:506-516 and 523-531. -/
def initNN (spi : Spi F) (need : Bool) (len : Nat) (arr : Option (Blk Nat)) (line : Nat) : M (Except ErrorCode (Option spi.NN)) := do
  if need then do
    match ← spi.nnInit len (arr.map fun b => ⟨[b.id], b.buf⟩) with
    | none => fail .distSearch "src/nng_core.c" line
    | some o => pure (.ok (some o))
  else pure (.ok none)

/-- Closing a search object that may be NULL, for instance src/nng_core.c:625-630. -/
def closeNN (spi : Spi F) : Option spi.NN → M Unit
  | none => pure ()
  | some o => do
    let _ ← spi.nnClose o
    pure ()

/-- The choice of the search object by method, src/nng_core.c:568-584 and 606-622. Searching with a NULL object is undefined behaviour. -/
def assignUnassigned (spi : Spi F) (oa os : Option spi.NN) (um : UnassignedMethod) (label : Option (Blk Int)) (num : Nat) (ta : Blk Nat) (rs : Bool) (radius : F) :
    M (ErrorCode × Buf Int × Buf Nat) := do
  if 0 < num then
    if um = .closestAssigned then do
      let o ← useK [] oa
      assignBySearch spi o label num ta rs radius
    else if um = .closestSeed then do
      let o ← useK [] os
      assignBySearch spi o label num ta rs radius
    else pure (.ok, ptrBuf label, ta.buf)
  else pure (.ok, ptrBuf label, ta.buf)

/-- The second round, over all points; src/nng_core.c:597-624. The error code of the search is dropped by the code. -/
def secondRound (cfg : Cfg) (spi : Spi F) (oa os : Option spi.NN) (um2 : UnassignedMethod) (n : Nat) (label : Option (Blk Int)) (ta : Blk Nat) (rs2 : Bool) (radius2 : F) :
    M (Buf Int) := do
  if um2 ≠ .ignore then do
    let (c, num) ← useK (ta.id :: ptrIds label) (listUnassigned cfg n none (ptrBuf label) ta.buf)
    let (_, l, _) ← assignUnassigned spi oa os um2 label num ⟨ta.id, c⟩ rs2 radius2
    pure l
  else pure (ptrBuf label)

/-- Clean-up, src/nng_core.c:586-595 and 622-631. -/
def closeAll (spi : Spi F) (son : Option (Blk Nat)) (ta : Nat) (oa os : Option spi.NN) : M Unit := do
  freePtr son
  freeId ta
  closeNN spi oa
  closeNN spi os

/-- The two rounds of assignment by search, src/nng_core.c:554-633. -/
def searchRounds (cfg : Cfg) (spi : Spi F) (n : Nat) (label : Option (Blk Int)) (son : Option (Blk Nat)) (oa os : Option spi.NN) (ta : Blk Nat)
    (um : UnassignedMethod) (rs : Bool) (radius : F) (lenPrimary : Nat) (primary : Option (Buf Nat)) (um2 : UnassignedMethod) (rs2 : Bool) (radius2 : F) :
    M (ErrorCode × Option (Blk Int)) := do
  let (c, num) ← useK (ta.id :: ptrIds label) (listUnassigned cfg (if primary.isSome then lenPrimary else n) primary (ptrBuf label) ta.buf)
  let (ec, l, c) ← assignUnassigned spi oa os um label num ⟨ta.id, c⟩ rs radius
  if ec ≠ .ok then do
    closeAll spi son ta.id oa os
    pure (ec, ptrSet label l)
  else do
    let l ← secondRound cfg spi oa os um2 n (ptrSet label l) ⟨ta.id, c⟩ rs2 radius2
    closeAll spi son ta.id oa os
    pure (.ok, ptrSet label l)

/-- Assignment by search, src/nng_core.c:502-633, after the digraph has been freed. -/
def assignRemaining (cfg : Cfg) (spi : Spi F) (n total numSon : Nat) (label : Option (Blk Int)) (son : Option (Blk Nat)) (sr : SeedResult)
    (um : UnassignedMethod) (rs : Bool) (radius : F) (lenPrimary : Nat) (primary : Option (Buf Nat)) (um2 : UnassignedMethod) (rs2 : Bool) (radius2 : F) :
    M (ErrorCode × Option (Blk Int)) := do
  match ← initNN spi (decide (um = .closestAssigned ∨ um2 = .closestAssigned)) numSon son 514 with
  | .error ec => do
    freePtr son
    pure (ec, label)
  | .ok oa => do
    match ← initNN spi (decide (um = .closestSeed ∨ um2 = .closestSeed)) sr.count sr.seeds 529 with
    | .error ec => do
      freePtr son
      closeNN spi oa
      pure (ec, label)
    | .ok os => do
      match ← alloc (Buf.raw ((n + (cfg.sizeMax + 1) - total + 1) % (cfg.sizeMax + 1)) : Buf Nat) with
      | none => do
        freePtr son
        closeNN spi oa
        closeNN spi os
        let e ← mkErr .noMemory "src/nng_core.c" 551
        pure (e, label)
      | some ta => searchRounds cfg spi n label son oa os ta um rs radius lenPrimary primary um2 rs2 radius2

/-- Is the assignment finished? src/nng_core.c:456-459 and 492-496. -/
def assignDone (n total : Nat) (um um2 : UnassignedMethod) : Bool := decide (total = n ∨ um = .ignore ∧ um2 = .ignore)

/-- The method for the search rounds, src/nng_core.c:487-490: `ANY_NEIGHBOR` is finished after the assignment by digraph. -/
def afterNng (um : UnassignedMethod) : UnassignedMethod := if um = .anyNeighbor then .ignore else um

/-- `iscc_make_nng_clusters_from_seeds`, src/nng_core.c:421-634. The results are the error code, the clustering and the digraph, which may have been freed. -/
def makeClusters (cfg : Cfg) (spi : Spi F) (cl : Clustering) (sr : SeedResult) (nng : Digraph) (ordered : Bool) (um : UnassignedMethod) (rs : Bool) (radius : F)
    (lenPrimary : Nat) (primary : Option (Buf Nat)) (um2 : UnassignedMethod) (rs2 : Bool) (radius2 : F) : M (ErrorCode × Clustering × Digraph) := do
  let (l, num) ← useK (ptrIds sr.seeds ++ nng.ids ++ ptrIds cl.label)
    (assignSeeds cfg cl.n sr.count (ptrBuf sr.seeds) (ptrBuf nng.head) (ptrBuf nng.tail) (ptrBuf cl.label))
  let cl := { cl with numClusters := sr.count, label := ptrSet cl.label l }
  if assignDone cl.n num um um2 then pure (.ok, cl, nng)
  else do
    match ← initAssigned cfg cl.n num (decide (um = .closestAssigned ∨ um2 = .closestAssigned)) cl.label with
    | .error ec => pure (ec, cl, nng)
    | .ok son =>
      if um = .anyNeighbor ∨ ordered = true ∧ um = .closestAssigned then do
        let (l, num') ← assignByNng cfg cl.n nng cl.label
        let cl := { cl with label := ptrSet cl.label l }
        if assignDone cl.n (num + num') (afterNng um) um2 then do
          freePtr son
          pure (.ok, cl, nng)
        else do
          let nng ← freeDigraph nng
          let (ec, label) ← assignRemaining cfg spi cl.n (num + num') num cl.label son sr (afterNng um) rs radius lenPrimary primary um2 rs2 radius2
          pure (ec, { cl with label := label }, nng)
      else do
        let nng ← freeDigraph nng
        let (ec, label) ← assignRemaining cfg spi cl.n num num cl.label son sr um rs radius lenPrimary primary um2 rs2 radius2
        pure (ec, { cl with label := label }, nng)

end Scc
