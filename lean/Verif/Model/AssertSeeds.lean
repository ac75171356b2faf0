/-
Model of src/nng_findseeds.c as built with `--enable-assert`: the functions of Model/FindSeeds.lean with the assertions in their places.

Assertions that a pointer is not NULL are left out where the pointer is a parameter that is not optional in the model (lines 129, 187, 230, 310, 464, 497 and 574). The assertions that
the result object is empty on entry (lines 131, 132, 189, 190, 232, 233, 312 and 313) are left out too: the model takes only the capacity of that object, and its other members are set
by the caller in the line before (src/nng_core.c). The assertion in line 157 is in the branch for unknown methods; the model's methods are the known ones.
-/
import Verif.Model.FindSeeds
import Verif.Model.AssertDigraph

namespace Scc

/-- The assertions on entry of the functions that find seeds, src/nng_findseeds.c:126-130, 184-188, 227-231 and 307-311. -/
def asrtFind (cfg : Cfg) (nng : Digraph) (cap : Nat) : M Unit := do
  asrtValid cfg nng
  asrtNonempty cfg nng
  asrtM (1 < nng.n)
  asrtM (0 < cap)

/-- `assert(nng->tail_ptr[v] != nng->tail_ptr[v + 1])`. -/
def asrtArcs (nng : Digraph) (v : Nat) : M Unit :=
  asrtK nng.ids (do
    let a ← (ptrBuf nng.tail).get v
    let b ← (ptrBuf nng.tail).get (v + 1)
    pure (decide (a ≠ b)))

/-- `iscc_fs_add_seed`, src/nng_findseeds.c:494-518, with the assertions of lines 498-500. -/
def addSeedDbg (cfg : Cfg) (s : Nat) (sr : SeedResult) : M (ErrorCode × SeedResult) := do
  asrtM (0 < sr.capacity)
  asrtM (sr.count ≤ sr.capacity)
  asrtM (sr.seeds ≠ none)
  addSeed cfg s sr

/-- `iscc_fs_mark_seed_neighbors`, src/nng_findseeds.c:539-553, with the assertions of lines 543 and 548. -/
def markNeighborsDbg (head tail : Buf Nat) (s : Nat) (marks : Buf Bool) : Option (Buf Bool) := do
  let m ← marks.get s
  asrt (m = false)
  let marks ← rowLoop head tail s marks fun a marks => do
    let m ← marks.get a
    asrt (m = false)
    marks.set a true
  marks.set s true

/-! ### Lexical -/

/-- Loop body of `iscc_findseeds_lexical`, src/nng_findseeds.c:204-215, with the assertion of line 205. -/
def lexicalStepDbg (cfg : Cfg) (nng : Digraph) (mid : Nat) (st : Buf Bool × SeedResult) (v : Nat) :
    M (Ctl (Buf Bool × SeedResult) (ErrorCode × SeedResult)) := do
  if ← useK (mid :: nng.ids) (checkMarks (ptrBuf nng.head) (ptrBuf nng.tail) v st.1) then do
    asrtArcs nng v
    let (ec, sr) ← addSeedDbg cfg v st.2
    if ec ≠ .ok then pure (.stop (ec, sr))
    else do
      let marks ← useK (mid :: nng.ids) (markNeighborsDbg (ptrBuf nng.head) (ptrBuf nng.tail) v st.1)
      pure (.next (marks, sr))
  else pure (.next st)

/-- `iscc_findseeds_lexical`, src/nng_findseeds.c:181-220, with the assertions of lines 184-188 and 201. -/
def findSeedsLexicalDbg (cfg : Cfg) (nng : Digraph) (cap : Nat) : M (Except ErrorCode SeedResult) := do
  asrtFind cfg nng cap
  let marks ← alloc (Buf.fill nng.n false)
  let seeds ← alloc (Buf.raw cap : Buf Nat)
  match marks, seeds with
  | some marks, some seeds => do
    asrtM (nng.n ≤ cfg.pointMax)
    match ← foldBM (lexicalStepDbg cfg nng marks.id) (marks.buf, ⟨cap, 0, some seeds⟩) (List.range nng.n) with
    | .stop (ec, sr) => do
      freeId marks.id
      freePtr sr.seeds
      pure (.error ec)
    | .next (_, sr) => do
      freeId marks.id
      pure (.ok sr)
  | marks, seeds => do
    freePtr marks
    freePtr seeds
    fail .noMemory "src/nng_findseeds.c" 197

/-! ### Sorting -/

/-- `iscc_fs_sort_by_inwards`, src/nng_findseeds.c:567-648, with the assertions of lines 571-573 and 621. -/
def sortByInwardsDbg (cfg : Cfg) (g : Digraph) (indices : Bool) : M (Except ErrorCode SortResult) := do
  asrtValid cfg g
  asrtNonempty cfg g
  asrtM (1 < g.n)
  let cnt ← alloc (Buf.fill g.n 0)
  let sv ← alloc (Buf.raw g.n : Buf Nat)
  match cnt, sv with
  | some cnt, some sv => do
    let c ← useK (cnt.id :: g.ids) (countInwards g.n (ptrBuf g.head) (ptrBuf g.tail) cnt.buf)
    let mx ← useK [cnt.id] (maxInwards g.n c)
    let bc ← alloc (Buf.fill (mx + 1) 0)
    let bidx ← alloc (Buf.raw (mx + 1) : Buf Nat)
    match bc, bidx with
    | some bc, some bidx => do
      let b ← useK [cnt.id, bc.id, bidx.id] (bucketEnds g.n mx c bc.buf bidx.buf)
      freeId bc.id
      asrtM (g.n ≤ cfg.pointMax)
      finishSort g.n indices ⟨cnt.id, c⟩ sv ⟨bidx.id, b⟩
    | bc, bidx => do
      freePtr bc
      freeSort ⟨some cnt, some sv, none, bidx⟩
      fail .noMemory "src/nng_findseeds.c" 608
  | cnt, sv => do
    freeSort ⟨cnt, sv, none, none⟩
    fail .noMemory "src/nng_findseeds.c" 587

/-- Loop of `iscc_fs_debug_bucket_sort`, src/nng_findseeds.c:712-717, with the assertion of line 713. -/
def bucketSortLoopDbg (start tmp : Nat) (cnt : Buf Nat) : Nat → Buf Nat → Buf Nat → Option (Nat × Buf Nat × Buf Nat)
  | 0, sv, vidx => if 0 = start then some (0, sv, vidx) else none
  | pos + 1, sv, vidx =>
    if pos + 1 = start then some (pos + 1, sv, vidx)
    else do
      let a ← cnt.get tmp
      let prev ← sv.get pos
      let b ← cnt.get prev
      asrt (a = b)
      if prev ≤ tmp then pure (pos + 1, sv, vidx)
      else do
        let sv ← sv.set (pos + 1) prev
        let a ← sv.get (pos + 1)
        let vidx ← vidx.set a (pos + 1)
        bucketSortLoopDbg start tmp cnt pos sv vidx

/-- `iscc_fs_debug_bucket_sort`, src/nng_findseeds.c:706-720. -/
def bucketSortDbg (start pos : Nat) (q : Queue) : Option Queue := do
  let tmp ← q.sv.get pos
  let (k, sv, vidx) ← bucketSortLoopDbg start tmp q.cnt pos q.sv q.vidx
  let sv ← sv.set k tmp
  let a ← sv.get k
  let vidx ← vidx.set a k
  pure { q with sv := sv, vidx := vidx }

/-- The part of `iscc_fs_decrease_v_in_sort` compiled when `SCC_STABLE_FINDSEED` is defined, src/nng_findseeds.c:686-699. -/
def restoreOrderDbg (p c src dst : Nat) (q : Queue) : Option Queue := do
  let q ← if dst ≠ src then bucketSortDbg (dst + 1) src q else pure q
  let b ← q.bidx.get c
  let bidx ← if b ≤ p then q.bidx.set c (p + 1) else pure q.bidx
  let b ← bidx.get c
  bucketSortDbg b dst { q with bidx := bidx }

/-- The first part of `iscc_fs_decrease_v_in_sort`, src/nng_findseeds.c:651-684, with the assertions of lines 658, 669 and 678. -/
def swapInSortDbg (p v : Nat) (q : Queue) : Option (Nat × Nat × Nat × Queue) := do
  let src ← q.vidx.get v
  let x ← q.sv.get src
  asrt (v = x)
  let c ← q.cnt.get v
  if c = 0 then none
  else do
    let to0 ← q.bidx.get c
    let dst := if to0 ≤ p then p + 1 else to0
    let bidx ← if to0 ≤ p then q.bidx.set (c - 1) dst else pure q.bidx
    let a ← q.sv.get src
    let ca ← q.cnt.get a
    let b ← q.sv.get dst
    let cb ← q.cnt.get b
    asrt (ca = cb)
    let bidx ← bidx.set c (dst + 1)
    let cnt ← q.cnt.set v (c - 1)
    let x ← q.sv.get src
    asrt (x = v)
    let y ← q.sv.get dst
    let sv ← q.sv.set src y
    let sv ← sv.set dst v
    let a ← sv.get dst
    let vidx ← q.vidx.set a dst
    let b ← sv.get src
    let vidx ← vidx.set b src
    pure (c - 1, src, dst, ⟨cnt, sv, vidx, bidx⟩)

/-- `iscc_fs_decrease_v_in_sort`, src/nng_findseeds.c:651-701. -/
def decreaseVDbg (stable : Bool) (p v : Nat) (q : Queue) : Option Queue := do
  let (c, src, dst, q) ← swapInSortDbg p v q
  if stable then restoreOrderDbg p c src dst q else pure q

/-- `iscc_fs_debug_check_sort`, src/nng_findseeds.c:727-738; positions `p` to `last` of the sorted vertices. -/
def checkSortDbg (p last : Nat) (q : Queue) : Option Unit :=
  forNe p last () fun i _ => do
    let a ← q.sv.get i
    let b ← q.sv.get (i + 1)
    let ca ← q.cnt.get a
    let cb ← q.cnt.get b
    asrt (ca ≤ cb)
    asrt (ca = cb → a < b)

/-- The call of `iscc_fs_debug_check_sort`, src/nng_findseeds.c:252-254 and 374-376: only in the stable builds, and when updating. -/
def checkSortCall (cfg : Cfg) (updating : Bool) (n p : Nat) (ids : List Nat) (q : Queue) : M Unit :=
  if cfg.stableSeeds && updating then useK ids (checkSortDbg p (n - 1) q) else pure ()

/-! ### Inwards -/

/-- "Only decrease if vertex can be seed", src/nng_findseeds.c:275-277 and 288-290. -/
def decreaseIfEligibleDbg (stable : Bool) (tail : Buf Nat) (marks : Buf Bool) (p x : Nat) (q : Queue) : Option Queue := do
  let m ← marks.get x
  if m then pure q
  else do
    let pos ← q.vidx.get x
    if p < pos then do
      let start ← tail.get x
      let stop ← tail.get (x + 1)
      if start ≠ stop then decreaseVDbg stable p x q else pure q
    else pure q

/-- Update after a seed was added at position `p`, src/nng_findseeds.c:264-282. -/
def updateAfterSeedDbg (stable : Bool) (head tail : Buf Nat) (marks : Buf Bool) (p s : Nat) (q : Queue) : Option Queue :=
  rowLoop head tail s q fun u q => do
    let pos ← q.vidx.get u
    if p < pos then rowLoop head tail u q fun x q => decreaseIfEligibleDbg stable tail marks p x q
    else pure q

/-- Update after an unmarked vertex at position `p` was passed over, src/nng_findseeds.c:284-293. -/
def updateAfterSkipDbg (stable : Bool) (head tail : Buf Nat) (marks : Buf Bool) (p v : Nat) (q : Queue) : Option Queue := do
  let m ← marks.get v
  if m then pure q
  else rowLoop head tail v q fun x q => decreaseIfEligibleDbg stable tail marks p x q

/-- Loop body of `iscc_findseeds_inwards`, src/nng_findseeds.c:251-294, with the assertion of line 257. -/
def inwardsStepDbg (cfg : Cfg) (nng : Digraph) (ids : List Nat) (updating : Bool) (st : Buf Bool × SeedResult × Queue) (p : Nat) :
    M (Ctl (Buf Bool × SeedResult × Queue) (ErrorCode × SeedResult)) := do
  let (marks, sr, q) := st
  let head := ptrBuf nng.head
  let tail := ptrBuf nng.tail
  checkSortCall cfg updating nng.n p ids q
  let v ← useK ids (q.sv.get p)
  if ← useK (ids ++ nng.ids) (checkMarks head tail v marks) then do
    asrtArcs nng v
    let (ec, sr) ← addSeedDbg cfg v sr
    if ec ≠ .ok then pure (.stop (ec, sr))
    else do
      let marks ← useK (ids ++ nng.ids) (markNeighborsDbg head tail v marks)
      let q ← if updating then useK (ids ++ nng.ids) (updateAfterSeedDbg cfg.stableSeeds head tail marks p v q) else pure q
      pure (.next (marks, sr, q))
  else if updating then do
    let q ← useK (ids ++ nng.ids) (updateAfterSkipDbg cfg.stableSeeds head tail marks p v q)
    pure (.next (marks, sr, q))
  else pure (.next (marks, sr, q))

/-- `iscc_findseeds_inwards`, src/nng_findseeds.c:223-300, with the assertions of lines 227-231. -/
def findSeedsInwardsDbg (cfg : Cfg) (nng : Digraph) (updating : Bool) (cap : Nat) : M (Except ErrorCode SeedResult) := do
  asrtFind cfg nng cap
  match ← sortByInwardsDbg cfg nng updating with
  | .error ec => pure (.error ec)
  | .ok sort => do
    let marks ← alloc (Buf.fill nng.n false)
    let seeds ← alloc (Buf.raw cap : Buf Nat)
    match marks, seeds with
    | some marks, some seeds => do
      let ids := marks.id :: (ptrIds sort.cnt ++ ptrIds sort.sv ++ ptrIds sort.vidx ++ ptrIds sort.bidx)
      let q : Queue := ⟨ptrBuf sort.cnt, ptrBuf sort.sv, ptrBuf sort.vidx, ptrBuf sort.bidx⟩
      match ← foldBM (inwardsStepDbg cfg nng ids updating) (marks.buf, ⟨cap, 0, some seeds⟩, q) (List.range nng.n) with
      | .stop (ec, sr) => do
        freeSort sort
        freeId marks.id
        freePtr sr.seeds
        pure (.error ec)
      | .next (_, sr, _) => do
        freeSort sort
        freeId marks.id
        pure (.ok sr)
    | marks, seeds => do
      freeSort sort
      freePtr marks
      freePtr seeds
      fail .noMemory "src/nng_findseeds.c" 245

/-! ### Exclusion -/

/-- `iscc_fs_exclusion_graph`, src/nng_findseeds.c:457-491, with the assertions of lines 462, 463 and 471. -/
def exclusionGraphDbg (cfg : Cfg) (nng : Digraph) (keep : Option (List Nat)) : M (Except ErrorCode Digraph) := do
  asrtValid cfg nng
  asrtNonempty cfg nng
  match ← digraphTransposeDbg cfg nng with
  | .error ec => pure (.error ec)
  | .ok tr => do
    asrtNonempty cfg tr
    let r ← adjacencyProductDbg cfg nng tr true
    let _ ← freeDigraph tr
    match r with
    | .error ec => pure (.error ec)
    | .ok prod => do
      let r ← unionAndDeleteDbg cfg [nng, prod] keep false
      let _ ← freeDigraph prod
      match r with
      | .error ec => pure (.error ec)
      | .ok d => pure (.ok d)

/-- Second pass, src/nng_findseeds.c:417-427. -/
def decreaseRecordedDbg (stable : Bool) (head tail : Buf Nat) (ne : Buf Bool) (p start stop : Nat) (q : Queue) : Option Queue :=
  forNe start stop q fun i q => do
    let u ← head.get i
    rowLoop head tail u q fun x q => do
      let e ← ne.get x
      if e then decreaseVDbg stable p x q else pure q

/-- The two passes, src/nng_findseeds.c:395-428. -/
def excludeUpdatingDbg (stable : Bool) (head tail : Buf Nat) (ne : Buf Bool) (p s : Nat) (q : Queue) : Option (Buf Bool × Buf Nat × Queue) := do
  let (ne, head, start, stop) ← excludeRecord head tail s ne
  let q ← decreaseRecordedDbg stable head tail ne p start stop q
  pure (ne, head, q)

/-- Loop body of `iscc_findseeds_exclusion`, src/nng_findseeds.c:373-429, with the assertion of line 379. -/
def exclusionStepDbg (cfg : Cfg) (nng : Digraph) (ids : List Nat) (tail : Buf Nat) (updating : Bool) (st : Buf Bool × Buf Nat × SeedResult × Queue) (p : Nat) :
    M (Ctl (Buf Bool × Buf Nat × SeedResult × Queue) (ErrorCode × SeedResult)) := do
  let (ne, head, sr, q) := st
  checkSortCall cfg updating nng.n p ids q
  let v ← useK ids (q.sv.get p)
  if ← useK ids (ne.get v) then do
    asrtArcs nng v
    let (ec, sr) ← addSeedDbg cfg v sr
    if ec ≠ .ok then pure (.stop (ec, sr))
    else do
      let ne ← useK ids (ne.set v false)
      if updating then do
        let (ne, head, q) ← useK ids (excludeUpdatingDbg cfg.stableSeeds head tail ne p v q)
        pure (.next (ne, head, sr, q))
      else do
        let ne ← useK ids (excludeRow head tail v ne)
        pure (.next (ne, head, sr, q))
  else pure (.next (ne, head, sr, q))

/-- Second half of `iscc_findseeds_exclusion`, src/nng_findseeds.c:347-436, after the exclusion graph `ex` is built. -/
def exclusionMainDbg (cfg : Cfg) (nng : Digraph) (updating : Bool) (cap : Nat) (ne : Blk Bool) (ex : Digraph) :
    M (Except ErrorCode SeedResult) := do
  match ← sortByInwardsDbg cfg ex updating with
  | .error ec => do
    freeId ne.id
    let _ ← freeDigraph ex
    pure (.error ec)
  | .ok sort => do
    match ← alloc (Buf.raw cap : Buf Nat) with
    | none => do
      freeId ne.id
      let _ ← freeDigraph ex
      freeSort sort
      fail .noMemory "src/nng_findseeds.c" 367
    | some seeds => do
      let ids := ne.id :: (ex.ids ++ ptrIds sort.cnt ++ ptrIds sort.sv ++ ptrIds sort.vidx ++ ptrIds sort.bidx)
      let q : Queue := ⟨ptrBuf sort.cnt, ptrBuf sort.sv, ptrBuf sort.vidx, ptrBuf sort.bidx⟩
      match ← foldBM (exclusionStepDbg cfg nng ids (ptrBuf ex.tail) updating)
          (ne.buf, ptrBuf ex.head, ⟨cap, 0, some seeds⟩, q) (List.range nng.n) with
      | .stop (ec, sr) => do
        freeId ne.id
        let _ ← freeDigraph ex
        freeSort sort
        freePtr sr.seeds
        pure (.error ec)
      | .next (_, _, sr, _) => do
        freeId ne.id
        let _ ← freeDigraph ex
        freeSort sort
        pure (.ok sr)

/-- `iscc_findseeds_exclusion`, src/nng_findseeds.c:303-437, with the assertions of lines 307-311 and 325. -/
def findSeedsExclusionDbg (cfg : Cfg) (nng : Digraph) (updating : Bool) (cap : Nat) : M (Except ErrorCode SeedResult) := do
  asrtFind cfg nng cap
  match ← alloc (Buf.raw nng.n : Buf Bool) with
  | none => fail .noMemory "src/nng_findseeds.c" 316
  | some ne => do
    let idx ← alloc (Buf.raw nng.n : Buf Nat) false
    noIndexArray ne idx
    asrtM (nng.n ≤ cfg.pointMax)
    let (neb, ib, k) ← useK (ne.id :: ptrIds idx ++ nng.ids) (notExcludedK nng.n (ptrBuf nng.tail) ne.buf (ptrBuf idx))
    let (keep, idx) ← tailsToKeep nng.n idx ib k
    match ← exclusionGraphDbg cfg nng keep with
    | .error ec => do
      freeId ne.id
      pure (.error ec)
    | .ok ex => do
      freePtr idx
      exclusionMainDbg cfg nng updating cap ⟨ne.id, neb⟩ ex

/-! ### Entry point -/

/-- The `switch` of `iscc_find_seeds`, src/nng_findseeds.c:134-159. -/
def findSeedsByDbg (cfg : Cfg) (nng : Digraph) (method : SeedMethod) (cap : Nat) : M (Except ErrorCode SeedResult) :=
  match method with
  | .lexical => findSeedsLexicalDbg cfg nng cap
  | .inwardsOrder => findSeedsInwardsDbg cfg nng false cap
  | .inwardsUpdating => findSeedsInwardsDbg cfg nng true cap
  | .exclusionOrder => findSeedsExclusionDbg cfg nng false cap
  | .exclusionUpdating => findSeedsExclusionDbg cfg nng true cap

/-- `iscc_find_seeds`, src/nng_findseeds.c:122-174, with the assertions of lines 126-130 and 163. -/
def findSeedsDbg (cfg : Cfg) (nng : Digraph) (method : SeedMethod) (cap : Nat) : M (Except ErrorCode SeedResult) := do
  asrtFind cfg nng cap
  match ← findSeedsByDbg cfg nng method cap with
  | .error ec => pure (.error ec)
  | .ok sr => do
    asrtM (sr.seeds ≠ none)
    let sr ← shrinkSeeds sr
    pure (.ok sr)

end Scc
