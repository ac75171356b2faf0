/-
Model of src/nng_findseeds.c. Pointers into `sorted_vertices` are modelled by indices.
The code under `SCC_STABLE_FINDSEED` (a debugging option that makes tie-breaking reproducible) is used when `stableSeeds` is set in the configuration.
-/
import Verif.Model.Digraph

namespace Scc

/-- `iscc_SeedResult`, src/nng_findseeds.h:34-38. -/
structure SeedResult where
  capacity : Nat
  count : Nat
  seeds : Option (Blk Nat)

/-- The seed methods of `scc_SeedMethod` handled by `iscc_find_seeds` (templates/scclust.h:274-315). -/
inductive SeedMethod
  | lexical | inwardsOrder | inwardsUpdating | exclusionOrder | exclusionUpdating
  deriving DecidableEq, Repr

/-! ### Adding seeds and marking -/

/-- Growing the seed array, src/nng_findseeds.c:507-513. -/
def growSeeds (cfg : Cfg) (sr : SeedResult) : M (ErrorCode × SeedResult) := do
  if sr.count = sr.capacity then do
    let cap := min (sr.capacity + sr.capacity / 8 + 1024) cfg.clabelMax
    match ← reallocHead sr.seeds cap with
    | none => do
      let e ← mkErr .noMemory "src/nng_findseeds.c" 510
      pure (e, { sr with capacity := cap })
    | some b => pure (.ok, { sr with capacity := cap, seeds := some b })
  else pure (.ok, sr)

/-- `iscc_fs_add_seed`, src/nng_findseeds.c:494-518. -/
def addSeed (cfg : Cfg) (s : Nat) (sr : SeedResult) : M (ErrorCode × SeedResult) := do
  if sr.count = cfg.clabelMax then do
    let e ← mkErr .tooLarge "src/nng_findseeds.c" 503 (some "Too many clusters (adjust the `scc_Clabel` type).")
    pure (e, sr)
  else do
    let (ec, sr) ← growSeeds cfg sr
    if ec ≠ .ok then pure (ec, sr)
    else do
      let b ← useK (ptrIds sr.seeds) ((ptrBuf sr.seeds).set sr.count s)
      pure (.ok, { sr with seeds := ptrSet sr.seeds b, count := sr.count + 1 })

/-- `iscc_fs_check_neighbors_marks`, src/nng_findseeds.c:521-536. -/
def checkMarks (head tail : Buf Nat) (v : Nat) (marks : Buf Bool) : Option Bool := do
  let m ← marks.get v
  if m then pure false
  else do
    let start ← tail.get v
    let stop ← tail.get (v + 1)
    if start = stop then pure false
    else if stop < start then none
    else do
      match ← forLtB start stop () (fun i _ => do
          let a ← head.get i
          let m ← marks.get a
          if m then pure (Ctl.stop ()) else pure (Ctl.next ())) with
      | .stop _ => pure false
      | .next _ => pure true

/-- `iscc_fs_mark_seed_neighbors`, src/nng_findseeds.c:539-553. -/
def markNeighbors (head tail : Buf Nat) (s : Nat) (marks : Buf Bool) : Option (Buf Bool) := do
  let marks ← rowLoop head tail s marks fun a marks => marks.set a true
  marks.set s true

/-! ### Lexical -/

/-- Loop body of `iscc_findseeds_lexical`, src/nng_findseeds.c:204-215. The state is the contents of `marks` (in block
`mid`) and the seeds; leaving the loop early hands back the error. -/
def lexicalStep (cfg : Cfg) (nng : Digraph) (mid : Nat) (st : Buf Bool × SeedResult) (v : Nat) :
    M (Ctl (Buf Bool × SeedResult) (ErrorCode × SeedResult)) := do
  if ← useK (mid :: nng.ids) (checkMarks (ptrBuf nng.head) (ptrBuf nng.tail) v st.1) then do
    let (ec, sr) ← addSeed cfg v st.2
    if ec ≠ .ok then pure (.stop (ec, sr))
    else do
      let marks ← useK (mid :: nng.ids) (markNeighbors (ptrBuf nng.head) (ptrBuf nng.tail) v st.1)
      pure (.next (marks, sr))
  else pure (.next st)

/-- `iscc_findseeds_lexical`, src/nng_findseeds.c:181-220; `cap` is `out_seeds->capacity` on entry. -/
def findSeedsLexical (cfg : Cfg) (nng : Digraph) (cap : Nat) : M (Except ErrorCode SeedResult) := do
  let marks ← alloc (Buf.fill nng.n false)
  let seeds ← alloc (Buf.raw cap : Buf Nat)
  match marks, seeds with
  | some marks, some seeds => do
    match ← foldBM (lexicalStep cfg nng marks.id) (marks.buf, ⟨cap, 0, some seeds⟩) (List.range nng.n) with
    | .stop (ec, sr) => do
      freeId marks.id
      freePtr sr.seeds
      pure (.error ec)
    | .next (_, sr) => do
      freeId marks.id
      pure (.ok sr)
  | marks, seeds => do
    freePtr marks
    freePtr seeds
    fail .noMemory "src/nng_findseeds.c" 197

/-! ### Sorting by inwards arcs -/

/-- `iscc_fs_SortResult`, src/nng_findseeds.c:37-42. Pointers into `sorted_vertices` are indices. -/
structure SortResult where
  cnt : Option (Blk Nat)
  sv : Option (Blk Nat)
  vidx : Option (Blk Nat)
  bidx : Option (Blk Nat)

/-- `iscc_fs_free_sort_result`, src/nng_findseeds.c:556-564. -/
def freeSort (s : SortResult) : M Unit := do
  freePtr s.cnt
  freePtr s.sv
  freePtr s.vidx
  freePtr s.bidx

/-- Counting inwards arcs, src/nng_findseeds.c:592-595. The counts are not wrapped: a count is at most the number of vertices
when no row has repeated arcs. -/
def countInwards (n : Nat) (head tail cnt : Buf Nat) : Option (Buf Nat) := do
  let total ← tail.get n
  forNe 0 total cnt fun i cnt => do
    let a ← head.get i
    let c ← cnt.get a
    cnt.set a (c + 1)

/-- Largest count, src/nng_findseeds.c:599-602. -/
def maxInwards (n : Nat) (cnt : Buf Nat) : Option Nat :=
  forLt 0 n 0 fun v m => do
    let c ← cnt.get v
    pure (if m < c then c else m)

/-- Bucket sizes and bucket ends, src/nng_findseeds.c:613-620. -/
def bucketEnds (n mx : Nat) (cnt bc bidx : Buf Nat) : Option (Buf Nat) := do
  let bc ← forLt 0 n bc fun v bc => do
    let c ← cnt.get v
    let k ← bc.get c
    bc.set c (k + 1)
  let b0 ← bc.get 0
  let bidx ← bidx.set 0 b0
  forLt 1 (mx + 1) bidx fun b bidx => do
    let prev ← bidx.get (b - 1)
    let k ← bc.get b
    bidx.set b (prev + k)

/-- Filling the sorted array from behind, src/nng_findseeds.c:630-635 (`indices`) and 637-641. -/
def fillSorted (indices : Bool) (n : Nat) (cnt sv vidx bidx : Buf Nat) : Option (Buf Nat × Buf Nat × Buf Nat) :=
  (List.range n).reverse.foldlM (fun (sv, vidx, bidx) v => do
    let c ← cnt.get v
    let b ← bidx.get c
    if b = 0 then none
    else do
      let bidx ← bidx.set c (b - 1)
      let sv ← sv.set (b - 1) v
      let vidx ← if indices then vidx.set v (b - 1) else pure vidx
      pure (sv, vidx, bidx)) (sv, vidx, bidx)

/-- End of `iscc_fs_sort_by_inwards` once the buckets are known, src/nng_findseeds.c:623-648. -/
def finishSort (n : Nat) (indices : Bool) (cnt sv bidx : Blk Nat) : M (Except ErrorCode SortResult) := do
  if indices then do
    match ← alloc (Buf.raw n : Buf Nat) with
    | none => do
      freeSort ⟨some cnt, some sv, none, some bidx⟩
      fail .noMemory "src/nng_findseeds.c" 626
    | some vidx => do
      let (s, v, b) ← useK [cnt.id, sv.id, vidx.id, bidx.id] (fillSorted true n cnt.buf sv.buf vidx.buf bidx.buf)
      pure (.ok ⟨some cnt, some ⟨sv.id, s⟩, some ⟨vidx.id, v⟩, some ⟨bidx.id, b⟩⟩)
  else do
    let (s, _, _) ← useK [cnt.id, sv.id, bidx.id] (fillSorted false n cnt.buf sv.buf (Buf.raw 0) bidx.buf)
    freeId cnt.id
    freeId bidx.id
    pure (.ok ⟨none, some ⟨sv.id, s⟩, none, none⟩)

/-- `iscc_fs_sort_by_inwards`, src/nng_findseeds.c:567-648. -/
def sortByInwards (g : Digraph) (indices : Bool) : M (Except ErrorCode SortResult) := do
  let cnt ← alloc (Buf.fill g.n 0)
  let sv ← alloc (Buf.raw g.n : Buf Nat)
  match cnt, sv with
  | some cnt, some sv => do
    let c ← useK (cnt.id :: g.ids) (countInwards g.n (ptrBuf g.head) (ptrBuf g.tail) cnt.buf)
    let mx ← useK [cnt.id] (maxInwards g.n c)
    let bc ← alloc (Buf.fill (mx + 1) 0)
    let bidx ← alloc (Buf.raw (mx + 1) : Buf Nat)
    match bc, bidx with
    | some bc, some bidx => do
      let b ← useK [cnt.id, bc.id, bidx.id] (bucketEnds g.n mx c bc.buf bidx.buf)
      freeId bc.id
      finishSort g.n indices ⟨cnt.id, c⟩ sv ⟨bidx.id, b⟩
    | bc, bidx => do
      freePtr bc
      freeSort ⟨some cnt, some sv, none, bidx⟩
      fail .noMemory "src/nng_findseeds.c" 608
  | cnt, sv => do
    freeSort ⟨cnt, sv, none, none⟩
    fail .noMemory "src/nng_findseeds.c" 587

/-- Contents of the four arrays of the priority queue. -/
structure Queue where
  cnt : Buf Nat
  sv : Buf Nat
  vidx : Buf Nat
  bidx : Buf Nat

/-- Loop of `iscc_fs_debug_bucket_sort`, src/nng_findseeds.c:712-717: entries greater than `tmp` move up by one position. Returns the position left free. Running below
the start of the array is undefined behaviour. -/
def bucketSortLoop (start tmp : Nat) : Nat → Buf Nat → Buf Nat → Option (Nat × Buf Nat × Buf Nat)
  | 0, sv, vidx => if 0 = start then some (0, sv, vidx) else none
  | pos + 1, sv, vidx =>
    if pos + 1 = start then some (pos + 1, sv, vidx)
    else do
      let prev ← sv.get pos
      if prev ≤ tmp then pure (pos + 1, sv, vidx)
      else do
        let sv ← sv.set (pos + 1) prev
        let a ← sv.get (pos + 1)
        let vidx ← vidx.set a (pos + 1)
        bucketSortLoop start tmp pos sv vidx

/-- `iscc_fs_debug_bucket_sort`, src/nng_findseeds.c:706-720 (compiled when `SCC_STABLE_FINDSEED` is defined): the vertex at `pos` moves down to its place among the sorted ones
from `start` on. -/
def bucketSort (start pos : Nat) (q : Queue) : Option Queue := do
  let tmp ← q.sv.get pos
  let (k, sv, vidx) ← bucketSortLoop start tmp pos q.sv q.vidx
  let sv ← sv.set k tmp
  let a ← sv.get k
  let vidx ← vidx.set a k
  pure { q with sv := sv, vidx := vidx }

/-- The part of `iscc_fs_decrease_v_in_sort` compiled when `SCC_STABLE_FINDSEED` is defined, src/nng_findseeds.c:686-699; `c` is the new count of the vertex, `src` and `dst` are `move_from` and `move_to`. -/
def restoreOrder (p c src dst : Nat) (q : Queue) : Option Queue := do
  let q ← if dst ≠ src then bucketSort (dst + 1) src q else pure q
  let b ← q.bidx.get c
  let bidx ← if b ≤ p then q.bidx.set c (p + 1) else pure q.bidx
  let b ← bidx.get c
  bucketSort b dst { q with bidx := bidx }

/-- The first part of `iscc_fs_decrease_v_in_sort`, src/nng_findseeds.c:651-684, with `current_pos` the index `p`. Returns the new count of the vertex, `move_from`, `move_to` and the arrays.
Decreasing a zero count (which would wrap in C) counts as undefined behaviour here. -/
def swapInSort (p v : Nat) (q : Queue) : Option (Nat × Nat × Nat × Queue) := do
  let src ← q.vidx.get v
  let c ← q.cnt.get v
  if c = 0 then none
  else do
    let to0 ← q.bidx.get c
    let dst := if to0 ≤ p then p + 1 else to0
    let bidx ← if to0 ≤ p then q.bidx.set (c - 1) dst else pure q.bidx
    let bidx ← bidx.set c (dst + 1)
    let cnt ← q.cnt.set v (c - 1)
    let y ← q.sv.get dst
    let sv ← q.sv.set src y
    let sv ← sv.set dst v
    let a ← sv.get dst
    let vidx ← q.vidx.set a dst
    let b ← sv.get src
    let vidx ← vidx.set b src
    pure (c - 1, src, dst, ⟨cnt, sv, vidx, bidx⟩)

/-- `iscc_fs_decrease_v_in_sort`, src/nng_findseeds.c:651-701; `stable` says whether `SCC_STABLE_FINDSEED` is defined. -/
def decreaseV (stable : Bool) (p v : Nat) (q : Queue) : Option Queue := do
  let (c, src, dst, q) ← swapInSort p v q
  if stable then restoreOrder p c src dst q else pure q

/-! ### Inwards -/

/-- "Only decrease if vertex can be seed", src/nng_findseeds.c:276-279 and 288-291: decrease `x` if it is unmarked, not yet
considered and has arcs. -/
def decreaseIfEligible (stable : Bool) (tail : Buf Nat) (marks : Buf Bool) (p x : Nat) (q : Queue) : Option Queue := do
  let m ← marks.get x
  if m then pure q
  else do
    let pos ← q.vidx.get x
    if p < pos then do
      let start ← tail.get x
      let stop ← tail.get (x + 1)
      if start ≠ stop then decreaseV stable p x q else pure q
    else pure q

/-- Update after a seed was added at position `p`, src/nng_findseeds.c:268-283. -/
def updateAfterSeed (stable : Bool) (head tail : Buf Nat) (marks : Buf Bool) (p s : Nat) (q : Queue) : Option Queue :=
  rowLoop head tail s q fun u q => do
    let pos ← q.vidx.get u
    if p < pos then rowLoop head tail u q fun x q => decreaseIfEligible stable tail marks p x q
    else pure q

/-- Update after an unmarked vertex at position `p` was passed over, src/nng_findseeds.c:284-293. -/
def updateAfterSkip (stable : Bool) (head tail : Buf Nat) (marks : Buf Bool) (p v : Nat) (q : Queue) : Option Queue := do
  let m ← marks.get v
  if m then pure q
  else rowLoop head tail v q fun x q => decreaseIfEligible stable tail marks p x q

/-- Loop body of `iscc_findseeds_inwards`, src/nng_findseeds.c:249-294. The blocks `ids` hold `marks` and the queue. -/
def inwardsStep (cfg : Cfg) (nng : Digraph) (ids : List Nat) (updating : Bool) (st : Buf Bool × SeedResult × Queue) (p : Nat) :
    M (Ctl (Buf Bool × SeedResult × Queue) (ErrorCode × SeedResult)) := do
  let (marks, sr, q) := st
  let head := ptrBuf nng.head
  let tail := ptrBuf nng.tail
  let v ← useK ids (q.sv.get p)
  if ← useK (ids ++ nng.ids) (checkMarks head tail v marks) then do
    let (ec, sr) ← addSeed cfg v sr
    if ec ≠ .ok then pure (.stop (ec, sr))
    else do
      let marks ← useK (ids ++ nng.ids) (markNeighbors head tail v marks)
      let q ← if updating then useK (ids ++ nng.ids) (updateAfterSeed cfg.stableSeeds head tail marks p v q) else pure q
      pure (.next (marks, sr, q))
  else if updating then do
    let q ← useK (ids ++ nng.ids) (updateAfterSkip cfg.stableSeeds head tail marks p v q)
    pure (.next (marks, sr, q))
  else pure (.next (marks, sr, q))

/-- `iscc_findseeds_inwards`, src/nng_findseeds.c:223-300. -/
def findSeedsInwards (cfg : Cfg) (nng : Digraph) (updating : Bool) (cap : Nat) : M (Except ErrorCode SeedResult) := do
  match ← sortByInwards nng updating with
  | .error ec => pure (.error ec)
  | .ok sort => do
    let marks ← alloc (Buf.fill nng.n false)
    let seeds ← alloc (Buf.raw cap : Buf Nat)
    match marks, seeds with
    | some marks, some seeds => do
      let ids := marks.id :: (ptrIds sort.cnt ++ ptrIds sort.sv ++ ptrIds sort.vidx ++ ptrIds sort.bidx)
      let q : Queue := ⟨ptrBuf sort.cnt, ptrBuf sort.sv, ptrBuf sort.vidx, ptrBuf sort.bidx⟩
      match ← foldBM (inwardsStep cfg nng ids updating) (marks.buf, ⟨cap, 0, some seeds⟩, q) (List.range nng.n) with
      | .stop (ec, sr) => do
        freeSort sort
        freeId marks.id
        freePtr sr.seeds
        pure (.error ec)
      | .next (_, sr, _) => do
        freeSort sort
        freeId marks.id
        pure (.ok sr)
    | marks, seeds => do
      freeSort sort
      freePtr marks
      freePtr seeds
      fail .noMemory "src/nng_findseeds.c" 245

/-! ### Exclusion -/

/-- `iscc_fs_exclusion_graph`, src/nng_findseeds.c:457-491; `keep = none` stands for a NULL list of tails to keep. -/
def exclusionGraph (cfg : Cfg) (nng : Digraph) (keep : Option (List Nat)) : M (Except ErrorCode Digraph) := do
  match ← digraphTranspose cfg nng with
  | .error ec => pure (.error ec)
  | .ok tr => do
    let r ← adjacencyProduct cfg nng tr true
    let _ ← freeDigraph tr
    match r with
    | .error ec => pure (.error ec)
    | .ok prod => do
      let r ← unionAndDelete cfg [nng, prod] keep false
      let _ ← freeDigraph prod
      match r with
      | .error ec => pure (.error ec)
      | .ok d => pure (.ok d)

/-- Vertices with arcs, src/nng_findseeds.c:327-331: the flags and the list of indices (and its length). -/
def notExcludedK (n : Nat) (tail : Buf Nat) (ne : Buf Bool) (idx : Buf Nat) : Option (Buf Bool × Buf Nat × Nat) :=
  forLt 0 n (ne, idx, 0) fun v (ne, idx, k) => do
    let start ← tail.get v
    let stop ← tail.get (v + 1)
    let ne ← ne.set v (start ≠ stop)
    let idx ← idx.set k v
    pure (ne, idx, if start ≠ stop then k + 1 else k)

/-- Exclude the neighbours of a seed, src/nng_findseeds.c:391-396. -/
def excludeRow (head tail : Buf Nat) (s : Nat) (ne : Buf Bool) : Option (Buf Bool) :=
  rowLoop head tail s ne fun a ne => ne.set a false

/-- First pass of the updating variant, src/nng_findseeds.c:407-416: exclude the neighbours of the seed and record, in the
seed's own row of the exclusion graph, those that were not excluded before. Returns the flags, the arc array and the end of
the recorded part. -/
def excludeRecord (head tail : Buf Nat) (s : Nat) (ne : Buf Bool) : Option (Buf Bool × Buf Nat × Nat × Nat) := do
  let start ← tail.get s
  let stop ← tail.get (s + 1)
  let (ne, head, wr) ← forNe start stop (ne, head, start) fun i (ne, head, wr) => do
    let a ← head.get i
    let x ← ne.get a
    if x then do
      let head ← head.set wr a
      let a ← head.get i
      let ne ← ne.set a false
      pure (ne, head, wr + 1)
    else do
      let ne ← ne.set a false
      pure (ne, head, wr)
  pure (ne, head, start, wr)

/-- Second pass, src/nng_findseeds.c:418-427: decrease the count of the remaining neighbours of the recorded vertices. -/
def decreaseRecorded (stable : Bool) (head tail : Buf Nat) (ne : Buf Bool) (p start stop : Nat) (q : Queue) : Option Queue :=
  forNe start stop q fun i q => do
    let u ← head.get i
    rowLoop head tail u q fun x q => do
      let e ← ne.get x
      if e then decreaseV stable p x q else pure q

/-- The two passes, src/nng_findseeds.c:398-428. Returns flags, arc array and queue. -/
def excludeUpdating (stable : Bool) (head tail : Buf Nat) (ne : Buf Bool) (p s : Nat) (q : Queue) : Option (Buf Bool × Buf Nat × Queue) := do
  let (ne, head, start, stop) ← excludeRecord head tail s ne
  let q ← decreaseRecorded stable head tail ne p start stop q
  pure (ne, head, q)

/-- Loop body of `iscc_findseeds_exclusion`, src/nng_findseeds.c:378-429. State: the flags, the arc array of the exclusion graph (used as
scratch space), the seeds and the queue. -/
def exclusionStep (cfg : Cfg) (ids : List Nat) (tail : Buf Nat) (updating : Bool) (st : Buf Bool × Buf Nat × SeedResult × Queue) (p : Nat) :
    M (Ctl (Buf Bool × Buf Nat × SeedResult × Queue) (ErrorCode × SeedResult)) := do
  let (ne, head, sr, q) := st
  let v ← useK ids (q.sv.get p)
  if ← useK ids (ne.get v) then do
    let (ec, sr) ← addSeed cfg v sr
    if ec ≠ .ok then pure (.stop (ec, sr))
    else do
      let ne ← useK ids (ne.set v false)
      if updating then do
        let (ne, head, q) ← useK ids (excludeUpdating cfg.stableSeeds head tail ne p v q)
        pure (.next (ne, head, sr, q))
      else do
        let ne ← useK ids (excludeRow head tail v ne)
        pure (.next (ne, head, sr, q))
  else pure (.next (ne, head, sr, q))

/-- Second half of `iscc_findseeds_exclusion`, src/nng_findseeds.c:350-436, after the exclusion graph `ex` is built. -/
def exclusionMain (cfg : Cfg) (nng : Digraph) (updating : Bool) (cap : Nat) (ne : Blk Bool) (ex : Digraph) :
    M (Except ErrorCode SeedResult) := do
  match ← sortByInwards ex updating with
  | .error ec => do
    freeId ne.id
    let _ ← freeDigraph ex
    pure (.error ec)
  | .ok sort => do
    match ← alloc (Buf.raw cap : Buf Nat) with
    | none => do
      freeId ne.id
      let _ ← freeDigraph ex
      freeSort sort
      fail .noMemory "src/nng_findseeds.c" 367
    | some seeds => do
      let ids := ne.id :: (ex.ids ++ ptrIds sort.cnt ++ ptrIds sort.sv ++ ptrIds sort.vidx ++ ptrIds sort.bidx)
      let q : Queue := ⟨ptrBuf sort.cnt, ptrBuf sort.sv, ptrBuf sort.vidx, ptrBuf sort.bidx⟩
      match ← foldBM (exclusionStep cfg ids (ptrBuf ex.tail) updating)
          (ne.buf, ptrBuf ex.head, ⟨cap, 0, some seeds⟩, q) (List.range nng.n) with
      | .stop (ec, sr) => do
        freeId ne.id
        let _ ← freeDigraph ex
        freeSort sort
        freePtr sr.seeds
        pure (.error ec)
      | .next (_, _, sr, _) => do
        freeId ne.id
        let _ ← freeDigraph ex
        freeSort sort
        pure (.ok sr)

/-- The list of tails to keep handed to the exclusion graph, src/nng_findseeds.c:332-336: when all vertices have arcs the
index array is freed and NULL is passed, otherwise its first `k` entries are passed. Returns the list and the pointer. -/
def tailsToKeep (n : Nat) (idx : Option (Blk Nat)) (buf : Buf Nat) (k : Nat) : M (Option (List Nat) × Option (Blk Nat)) := do
  if k = n then do
    freePtr idx
    pure (none, none)
  else do
    let l ← useK (ptrIds idx) (buf.read k)
    pure (some l, idx)

/-- The check of the second allocation, src/nng_findseeds.c:321-324: the code frees `not_excluded` and raises an error, but goes on
(so that the failure is not handled, and the request counts as unchecked). -/
def noIndexArray (ne : Blk Bool) : Option (Blk Nat) → M Unit
  | none => do
    freeId ne.id
    let _ ← mkErr .noMemory "src/nng_findseeds.c" 323
    pure ()
  | some _ => pure ()

/-- `iscc_findseeds_exclusion`, src/nng_findseeds.c:303-437. When the second allocation fails, the code frees `not_excluded`
but goes on (lines 321-324 lack a `return`). When the exclusion graph fails, `tmp_index_not_excluded` is not freed (lines 341-344). -/
def findSeedsExclusion (cfg : Cfg) (nng : Digraph) (updating : Bool) (cap : Nat) : M (Except ErrorCode SeedResult) := do
  match ← alloc (Buf.raw nng.n : Buf Bool) with
  | none => fail .noMemory "src/nng_findseeds.c" 316
  | some ne => do
    let idx ← alloc (Buf.raw nng.n : Buf Nat) false
    noIndexArray ne idx
    let (neb, ib, k) ← useK (ne.id :: ptrIds idx ++ nng.ids) (notExcludedK nng.n (ptrBuf nng.tail) ne.buf (ptrBuf idx))
    let (keep, idx) ← tailsToKeep nng.n idx ib k
    match ← exclusionGraph cfg nng keep with
    | .error ec => do
      freeId ne.id
      pure (.error ec)
    | .ok ex => do
      freePtr idx
      exclusionMain cfg nng updating cap ⟨ne.id, neb⟩ ex

/-! ### Entry point -/

/-- Shrinking the seed array, src/nng_findseeds.c:161-170: a failed `realloc` is ignored. -/
def shrinkSeeds (sr : SeedResult) : M SeedResult := do
  if sr.count < sr.capacity ∧ 0 < sr.count then do
    match ← reallocHead sr.seeds sr.count with
    | none => pure sr
    | some b => pure { sr with seeds := some b, capacity := sr.count }
  else pure sr

/-- The `switch` of `iscc_find_seeds`, src/nng_findseeds.c:134-159. -/
def findSeedsBy (cfg : Cfg) (nng : Digraph) (method : SeedMethod) (cap : Nat) : M (Except ErrorCode SeedResult) :=
  match method with
  | .lexical => findSeedsLexical cfg nng cap
  | .inwardsOrder => findSeedsInwards cfg nng false cap
  | .inwardsUpdating => findSeedsInwards cfg nng true cap
  | .exclusionOrder => findSeedsExclusion cfg nng false cap
  | .exclusionUpdating => findSeedsExclusion cfg nng true cap

/-- `iscc_find_seeds`, src/nng_findseeds.c:122-174. -/
def findSeeds (cfg : Cfg) (nng : Digraph) (method : SeedMethod) (cap : Nat) : M (Except ErrorCode SeedResult) := do
  match ← findSeedsBy cfg nng method cap with
  | .error ec => pure (.error ec)
  | .ok sr => do
    let sr ← shrinkSeeds sr
    pure (.ok sr)

end Scc
