/-
Model of src/nng_core.c and src/nng_clustering.c as built with `--enable-assert`: the functions of Model/NngCore.lean and Model/NngClustering.lean with the assertions in their places, and the
digraph functions and the functions that find seeds replaced by theirs with assertions.

Assertions that a pointer is not NULL are left out where the pointer is a parameter that is not optional in the model (src/nng_core.c:140, 204, 205, 207, 369, 660, 705, 709, 859-861, 1002
and 1004). The assertions of lines 759 and 775 repeat conditions that have just been tested, and the one of line 952 compares the counter of a loop with its bound; they are left out.
-/
import Verif.Model.NngClustering
import Verif.Model.AssertBatches
import Verif.Model.AssertSeeds

namespace Scc

variable {F : Type} [FloatOps F]

/-- `assert(!radius_constraint || (radius > 0.0))`. -/
def asrtRadius (rs : Bool) (radius : F) : M Unit := asrtM (rs = true → FloatOps.lt FloatOps.zero radius = true)

/-! ### Nearest neighbour digraphs -/

/-- Is the array for answered queries NULL? -/
def OutQ.isNull : OutQ → Bool
  | .null => true
  | _ => false

/-- Shrinking the arc storage, src/nng_core.c:793-805, with the assertion of line 794. -/
def shrinkNngDbg (cfg : Cfg) (d : Digraph) (lenQ k : Nat) (rs : Bool) (numOk : Nat) (outQ : Buf Nat) : M (Except ErrorCode NngOut) := do
  if numOk < lenQ then do
    asrtM (rs = true)
    let (ec, d) ← changeArcStorageDbg cfg d ((numOk * k) % (cfg.sizeMax + 1))
    if ec ≠ .ok then do
      let _ ← freeDigraph d
      pure (.error ec)
    else pure (.ok ⟨d, numOk, outQ⟩)
  else pure (.ok ⟨d, numOk, outQ⟩)

/-- `iscc_make_nng_from_search_object`, src/nng_core.c:694-806, with the assertions of lines 706-708, 755, 758, 776, 788 and 789. -/
def makeNngFromSearchDbg (cfg : Cfg) (spi : Spi F) (o : spi.NN) (n lenQ : Nat) (queries : Option Arr) (k : Nat) (rs : Bool) (radius : F) (outQ : OutQ) :
    M (Except ErrorCode NngOut) := do
  asrtM (0 < lenQ)
  asrtM (0 < k)
  asrtRadius rs radius
  match ← internalOut rs outQ lenQ with
  | .error ec => pure (.error ec)
  | .ok (dq, internal) => do
    match ← initDigraphDbg cfg n ((lenQ * k) % (cfg.sizeMax + 1)) with
    | .error ec => do
      freePtr internal
      pure (.error ec)
    | .ok d => do
      touch (d.ids ++ ptrIds internal)
      match ← spi.nnSearch o lenQ queries k rs radius dq (ptrBuf d.head) with
      | none => do
        freePtr internal
        let _ ← freeDigraph d
        fail .distSearch "src/nng_core.c" 744
      | some r => do
        asrtM (rs = true → dq.isNull = false)
        asrtM (rs = false → lenQ = r.numOk)
        let tail ← useK (d.ids ++ ptrIds internal ++ arrIds queries)
          (writeTails n k lenQ r.numOk (if rs then some r.outQ else queries.map Arr.buf) (ptrBuf d.tail))
        asrtM (internal.isSome = true → rs = true)
        asrtM (internal.isSome = true → outQ.isNull = true)
        freePtr internal
        shrinkNngDbg cfg { d with head := ptrSet d.head r.nn, tail := ptrSet d.tail tail } lenQ k rs r.numOk r.outQ

/-- `iscc_make_nng`, src/nng_core.c:641-691, with the assertions of lines 654-659. -/
def makeNngDbg (cfg : Cfg) (spi : Spi F) (n lenS : Nat) (search : Option Arr) (lenQ : Nat) (queries : Option Arr) (k : Nat) (rs : Bool) (radius : F)
    (outQ : OutQ) : M (Except ErrorCode NngOut) := do
  asrtM (spi.valid = true)
  asrtM (0 < lenS)
  asrtM (0 < lenQ)
  asrtM (0 < k)
  asrtM (k ≤ lenS)
  asrtRadius rs radius
  match ← spi.nnInit lenS search with
  | none => fail .distSearch "src/nng_core.c" 667
  | some o => do
    match ← makeNngFromSearchDbg cfg spi o n lenQ queries k rs radius outQ with
    | .error ec => do
      let _ ← spi.nnClose o
      pure (.error ec)
    | .ok r => do
      if ← spi.nnClose o then pure (.ok r)
      else do
        let _ ← freeDigraph r.nng
        fail .distSearch "src/nng_core.c" 687

/-- `iscc_ensure_self_match`, src/nng_core.c:809-845, with the assertions of lines 813-815 and 823: the new arcs. -/
def selfMatchDbg (cfg : Cfg) (d : Digraph) (lenS : Nat) (search : Option Arr) : M (Buf Nat) := do
  asrtValid cfg d
  asrtNonempty cfg d
  asrtM (0 < lenS)
  asrtM (search.isNone = true → lenS ≤ cfg.pointMax)
  useK (arrIds search ++ d.ids) (selfMatch lenS search (ptrBuf d.head) (ptrBuf d.tail))

/-- `iscc_get_nng_with_size_constraint` up to the sorting of the arcs, src/nng_core.c:125-175, with the assertions of lines 134-139. -/
def nngSizeArcsDbg (cfg : Cfg) (spi : Spi F) (n S lenPrimary : Nat) (primary : Option Arr) (rs : Bool) (radius : F) : M (Except ErrorCode Digraph) := do
  asrtM (spi.valid = true)
  asrtM (spi.numPoints = n)
  asrtM (2 ≤ n)
  asrtM (S ≤ n)
  asrtM (2 ≤ S)
  asrtRadius rs radius
  match ← makeNngDbg cfg spi n n none (if primary.isNone then n else lenPrimary) primary S rs radius .null with
  | .error ec => pure (.error ec)
  | .ok r => do
    if ← useK r.nng.ids (digraphIsEmptyDbg cfg r.nng) then do
      let _ ← freeDigraph r.nng
      fail .noSolution "src/nng_core.c" 167 (some "Infeasible radius constraint.")
    else do
      let head ← selfMatchDbg cfg r.nng n none
      let (ec, d) ← deleteLoopsDbg cfg { r.nng with head := ptrSet r.nng.head head }
      if ec ≠ .ok then do
        let _ ← freeDigraph d
        pure (.error ec)
      else pure (.ok d)

/-- `iscc_get_nng_with_size_constraint`, src/nng_core.c:125-182. -/
def nngWithSizeDbg (cfg : Cfg) (spi : Spi F) (n S lenPrimary : Nat) (primary : Option Arr) (rs : Bool) (radius : F) : M (Except ErrorCode Digraph) := do
  let r ← nngSizeArcsDbg cfg spi n S lenPrimary primary rs radius
  sortResult cfg r

/-! ### Type constraints -/

/-- Counting the points of each type, src/nng_core.c:877-880, with the assertion of line 878. -/
def countTypesDbg (n numTypes : Nat) (labels sizes : Buf Nat) : Option (Buf Nat) :=
  forLt 0 n sizes fun i sizes => do
    let t ← labels.get i
    asrt (t < numTypes)
    let c ← sizes.get t
    sizes.set t (c + 1)

/-- `iscc_type_count`, src/nng_core.c:848-912, with the assertions of lines 855-858 and 904. -/
def typeCountDbg (cfg : Cfg) (n S numTypes : Nat) (tcs labels : Buf Nat) : M (Except ErrorCode TypeCount) := do
  asrtM (1 < n)
  asrtM (2 ≤ S)
  asrtM (2 ≤ numTypes)
  asrtM (numTypes ≤ typeLabelMax)
  let sizes ← alloc (Buf.fill numTypes 0 : Buf Nat)
  let store ← alloc (Buf.raw n : Buf Nat)
  let groups ← alloc (Buf.raw numTypes : Buf Nat)
  match sizes, store, groups with
  | some sizes, some store, some groups => do
    let sz ← useK [sizes.id] (countTypesDbg n numTypes labels sizes.buf)
    match ← useK [sizes.id] (sumTypes numTypes tcs sz) with
    | none => do
      freeId sizes.id
      freeId store.id
      freeId groups.id
      fail .noSolution "src/nng_core.c" 887 (some "Fewer data points than type size constraint.")
    | some sum =>
      if S < sum then do
        freeId sizes.id
        freeId store.id
        freeId groups.id
        fail .invalidInput "src/nng_core.c" 896 (some "Type constraint cannot be larger than overall size constraint.")
      else do
        let gr ← useK [sizes.id, groups.id] (groupEnds numTypes sz groups.buf)
        asrtM (n ≤ cfg.pointMax)
        let (st, gr) ← useK [store.id, groups.id] (fillGroups n labels store.buf gr)
        pure (.ok ⟨sum, ⟨sizes.id, sz⟩, ⟨store.id, st⟩, ⟨groups.id, gr⟩⟩)
  | sizes, store, groups => do
    freePtr sizes
    freePtr store
    freePtr groups
    fail .noMemory "src/nng_core.c" 874

/-- Body of the loop over types, src/nng_core.c:253-279. -/
def typeNngStepDbg (cfg : Cfg) (spi : Spi F) (n : Nat) (tcs : Buf Nat) (tc : TypeCount) (primary : Option Arr) (rs : Bool) (radius : F) (st : TypeSt)
    (i : Nat) : M (Ctl TypeSt (ErrorCode × TypeSt)) := do
  let c ← useK [] (tcs.get i)
  if 0 < c then do
    let (len, g) ← useK [tc.sizes.id, tc.groups.id] (groupPos tc i)
    match ← makeNngDbg cfg spi n len (some ⟨[tc.store.id], tc.store.buf.drop g⟩) st.numQ (queriesOf st.seedable primary) c rs radius
        (seedOut st.seedable) with
    | .error ec => pure (.stop (ec, st))
    | .ok r => do
      if ← useK r.nng.ids (digraphIsEmptyDbg cfg r.nng) then do
        let e ← mkErr .noSolution "src/nng_core.c" 272 (some "Infeasible radius constraint.")
        pure (.stop (e, ⟨st.dgs ++ [r.nng], r.numOk, ptrSet st.seedable r.outQ⟩))
      else do
        let head ← selfMatchDbg cfg r.nng len (some ⟨[tc.store.id], tc.store.buf.drop g⟩)
        pure (.next ⟨st.dgs ++ [{ r.nng with head := ptrSet r.nng.head head }], r.numOk, ptrSet st.seedable r.outQ⟩)
  else pure (.next st)

/-- Union of digraphs restricted to the queries that are left, src/nng_core.c:286-290 and 334. -/
def unionQueriesDbg (cfg : Cfg) (dgs : List Digraph) (numQ : Nat) (queries : Option Arr) (keepLoops : Bool) : M (Except ErrorCode Digraph) :=
  match queries with
  | none => unionAndDeleteDbg cfg dgs none keepLoops
  | some a => do
    let ts ← useK a.ids (a.buf.read numQ)
    unionAndDeleteDbg cfg dgs (some ts) keepLoops

/-- Removing the arcs already there, src/nng_core.c:327-331. -/
def extraArcsDbg (cfg : Cfg) (m d : Digraph) (additional : Nat) : M (ErrorCode × Digraph) := do
  if ← useK m.ids (digraphIsEmptyDbg cfg m) then do
    let e ← mkErr .noSolution "src/nng_core.c" 328 (some "Infeasible radius constraint.")
    pure (e, m)
  else digraphDifferenceDbg cfg m d additional

/-- The general size constraint on top of the type constraints, src/nng_core.c:305-346. -/
def addGeneralDbg (cfg : Cfg) (spi : Spi F) (n S sum : Nat) (primary : Option Arr) (rs : Bool) (radius : F) (numQ : Nat) (seedable : Option (Blk Nat))
    (d : Digraph) : M (Except ErrorCode Digraph) := do
  if sum < S then do
    match ← makeNngDbg cfg spi n n none numQ (queriesOf seedable primary) S rs radius (seedOut seedable) with
    | .error ec => do
      freePtr seedable
      let _ ← freeDigraph d
      pure (.error ec)
    | .ok r => do
      let (ec, m) ← extraArcsDbg cfg r.nng d (S - sum)
      if ec ≠ .ok then do
        let _ ← freeDigraph d
        let _ ← freeDigraph m
        freePtr seedable
        pure (.error ec)
      else do
        let u ← unionQueriesDbg cfg [d, m] r.numOk (queriesOf (ptrSet seedable r.outQ) primary) false
        let _ ← freeDigraph d
        let _ ← freeDigraph m
        freePtr seedable
        pure u
  else do
    freePtr seedable
    pure (.ok d)

/-- The union over types and the clean-up, src/nng_core.c:284-303. -/
def combineTypesDbg (cfg : Cfg) (spi : Spi F) (n S sum arrId : Nat) (primary : Option Arr) (rs : Bool) (radius : F)
    (r : Ctl TypeSt (ErrorCode × TypeSt)) : M (Except ErrorCode Digraph) :=
  match r with
  | .stop (ec, st) => do
    freeDigraphs st.dgs
    freeId arrId
    freePtr st.seedable
    pure (.error ec)
  | .next st => do
    touch [arrId]
    let u ← unionQueriesDbg cfg st.dgs st.numQ (queriesOf st.seedable primary) (decide (sum < S))
    freeDigraphs st.dgs
    freeId arrId
    match u with
    | .error ec => do
      freePtr st.seedable
      pure (.error ec)
    | .ok d => addGeneralDbg cfg spi n S sum primary rs radius st.numQ st.seedable d

/-- `iscc_get_nng_with_type_constraint` up to the sorting of the arcs, src/nng_core.c:185-346, with the assertions of lines 197-203 and 206. -/
def nngTypeArcsDbg (cfg : Cfg) (spi : Spi F) (n S numTypes : Nat) (tcs labels : Buf Nat) (lenPrimary : Nat) (primary : Option Arr) (rs : Bool) (radius : F) :
    M (Except ErrorCode Digraph) := do
  asrtM (spi.valid = true)
  asrtM (spi.numPoints = n)
  asrtM (2 ≤ n)
  asrtM (S ≤ n)
  asrtM (2 ≤ S)
  asrtM (2 ≤ numTypes)
  asrtM (numTypes ≤ typeLabelMax)
  asrtRadius rs radius
  match ← initSeedable n (if primary.isNone then n else lenPrimary) primary rs with
  | .error ec => pure (.error ec)
  | .ok seedable => do
    match ← alloc (Buf.raw numTypes : Buf Unit) with
    | none => do
      freePtr seedable
      fail .noMemory "src/nng_core.c" 237
    | some arr => do
      match ← typeCountDbg cfg n S numTypes tcs labels with
      | .error ec => do
        freePtr seedable
        freeId arr.id
        pure (.error ec)
      | .ok tc => do
        let r ← foldBM (typeNngStepDbg cfg spi n tcs tc primary rs radius) ⟨[], if primary.isNone then n else lenPrimary, seedable⟩ (List.range numTypes)
        freeId tc.sizes.id
        freeId tc.store.id
        freeId tc.groups.id
        combineTypesDbg cfg spi n S tc.sum arr.id primary rs radius r

/-- `iscc_get_nng_with_type_constraint`, src/nng_core.c:185-353. -/
def nngWithTypesDbg (cfg : Cfg) (spi : Spi F) (n S numTypes : Nat) (tcs labels : Buf Nat) (lenPrimary : Nat) (primary : Option Arr) (rs : Bool) (radius : F) :
    M (Except ErrorCode Digraph) := do
  let r ← nngTypeArcsDbg cfg spi n S numTypes tcs labels lenPrimary primary rs radius
  sortResult cfg r

/-! ### Estimating the radius -/

/-- Body of the loop over seeds, src/nng_core.c:380-410, with the assertions of lines 385 and 406-408. -/
def estimateStepDbg (spi : Spi F) (sr : SeedResult) (nng : Digraph) (S scratch : Nat) (st : Nat × F × Buf F) (s : Nat) : M (Ctl (Nat × F × Buf F) ErrorCode) := do
  let (seed, lo, num) ← useK (ptrIds sr.seeds ++ nng.ids) (seedArcs (ptrBuf sr.seeds) (ptrBuf nng.tail) s)
  asrtM (num = S ∨ num = S - 1)
  touch [scratch]
  match ← spi.distRows 1 (some ⟨[], Buf.ofList [seed]⟩) num (some ⟨ptrIds nng.head, (ptrBuf nng.head).drop lo⟩) st.2.2 with
  | none => do
    freeId scratch
    let e ← mkErr .distSearch "src/nng_core.c" 395
    pure (.stop e)
  | some dists => do
    let (tmp, cnt) ← useK (scratch :: nng.ids) (sumDists seed lo num (ptrBuf nng.head) dists)
    asrtM (cnt = S ∨ cnt = S - 1)
    asrtM (0 < cnt)
    pure (.next (st.1 + 1, FloatOps.add st.2.1 (FloatOps.div tmp (FloatOps.ofNat cnt)), dists))

/-- `iscc_estimate_avg_seed_dist`, src/nng_core.c:356-418, with the assertions of lines 362-368 and 372. -/
def estimateAvgDbg (cfg : Cfg) (spi : Spi F) (sr : SeedResult) (nng : Digraph) (S : Nat) : M (Except ErrorCode F) := do
  asrtM (spi.valid = true)
  asrtM (spi.numPoints = nng.n)
  asrtM (0 < sr.count)
  asrtM (sr.seeds.isSome = true)
  asrtValid cfg nng
  asrtNonempty cfg nng
  asrtM (2 ≤ S)
  asrtM (0 < if 1000 < sr.count then sr.count / 1000 else 1)
  match ← alloc (Buf.raw S : Buf F) with
  | none => fail .noMemory "src/nng_core.c" 377
  | some b => do
    match ← foldBM (estimateStepDbg spi sr nng S b.id) (0, FloatOps.zero, b.buf) (sampleIndices sr.count) with
    | .stop ec => pure (.error ec)
    | .next (sampled, sum, _) => do
      freeId b.id
      pure (.ok (FloatOps.div sum (FloatOps.ofNat sampled)))

/-! ### Assigning labels -/

/-- The loops of `iscc_assign_seeds_and_neighbors`, src/nng_core.c:928-952, with the assertions of lines 937-939 and 944. -/
def assignSeedsDbg (cfg : Cfg) (n count : Nat) (seeds head tail : Buf Nat) (labels : Buf Int) : Option (Buf Int × Nat) := do
  let labels ← forLt 0 n labels fun i labels => labels.set i cfg.na
  forNe 0 count (labels, 0) fun s (labels, num) => do
    asrt ((s : Int) ≠ cfg.na)
    asrt (s < cfg.clabelMax)
    let seed ← seeds.get s
    let l ← labels.get seed
    asrt (l = cfg.na)
    let labels ← rowLoop head tail seed labels fun a labels => do
      let l ← labels.get a
      asrt (l = cfg.na)
      labels.set a (s : Int)
    let hi ← tail.get (seed + 1)
    let lo ← tail.get seed
    let l ← labels.get seed
    let labels ← labels.set seed (s : Int)
    pure (labels, num + (hi - lo) + if l = cfg.na then 1 else 0)

/-- `iscc_assign_seeds_and_neighbors`, src/nng_core.c:915-955, with the assertions of lines 919-924. -/
def assignSeedsMDbg (cfg : Cfg) (cl : Clustering) (sr : SeedResult) (nng : Digraph) : M (Buf Int × Nat) := do
  asrtM (cl.isInitialized cfg = true)
  asrtM (cl.label.isSome = true)
  asrtM (0 < sr.count)
  asrtM (sr.seeds.isSome = true)
  asrtValid cfg nng
  asrtNonempty cfg nng
  useK (ptrIds sr.seeds ++ nng.ids ++ ptrIds cl.label)
    (assignSeedsDbg cfg cl.n sr.count (ptrBuf sr.seeds) (ptrBuf nng.head) (ptrBuf nng.tail) (ptrBuf cl.label))

/-- The main loop of `iscc_assign_by_nng`, src/nng_core.c:971-986, with the assertions of lines 974 and 979. -/
def assignByNngKDbg (cfg : Cfg) (n : Nat) (head tail : Buf Nat) (scratch : Buf Bool) (labels : Buf Int) : Option (Buf Int × Nat) :=
  forLt 0 n (labels, 0) fun i (labels, num) => do
    let u ← scratch.get i
    if u then do
      let l ← labels.get i
      asrt (l = cfg.na)
      match ← firstAssigned head tail scratch i with
      | some a => do
        let l ← labels.get a
        asrt (l ≠ cfg.na)
        let labels ← labels.set i l
        pure (labels, num + 1)
      | none => pure (labels, num)
    else pure (labels, num)

/-- `iscc_assign_by_nng`, src/nng_core.c:958-991, with the assertions of lines 961-963. -/
def assignByNngDbg (cfg : Cfg) (cl : Clustering) (nng : Digraph) : M (Buf Int × Nat) := do
  asrtM (cl.isInitialized cfg = true)
  asrtValid cfg nng
  asrtNonempty cfg nng
  match ← alloc (Buf.raw cl.n : Buf Bool) false with
  | none => do
    let _ ← mkErr .noMemory "src/nng_core.c" 966
    pure (ptrBuf cl.label, 3)
  | some b => do
    let scratch ← useK (b.id :: ptrIds cl.label) (unassignedFlags cfg cl.n (ptrBuf cl.label) b.buf)
    let r ← useK (b.id :: nng.ids ++ ptrIds cl.label) (assignByNngKDbg cfg cl.n (ptrBuf nng.head) (ptrBuf nng.tail) scratch (ptrBuf cl.label))
    freeId b.id
    pure r

/-- Copying the labels of the found neighbours, src/nng_core.c:1032-1036, with the assertions of lines 1033 and 1034. -/
def copyFromNNDbg (cfg : Cfg) (numOk : Nat) (okq nn : Buf Nat) (labels : Buf Int) : Option (Buf Int) :=
  forLt 0 numOk labels fun i labels => do
    let q ← okq.get i
    let l ← labels.get q
    asrt (l = cfg.na)
    let x ← nn.get i
    let l ← labels.get x
    asrt (l ≠ cfg.na)
    labels.set q l

/-- `iscc_assign_by_nn_search`, src/nng_core.c:994-1041, with the assertions of lines 1001, 1003, 1005 and 1028. -/
def assignBySearchDbg (cfg : Cfg) (spi : Spi F) (o : spi.NN) (cl : Clustering) (num : Nat) (ta : Blk Nat) (rs : Bool) (radius : F) :
    M (ErrorCode × Buf Int × Buf Nat) := do
  asrtM (cl.isInitialized cfg = true)
  asrtM (0 < num)
  asrtRadius rs radius
  let nnb ← alloc (Buf.raw num : Buf Nat) false
  touch (ta.id :: ptrIds nnb)
  match ← spi.nnSearch o num (some ⟨[ta.id], ta.buf⟩) 1 rs radius (if rs then .same else .null) (ptrBuf nnb) with
  | none => do
    freePtr nnb
    let e ← mkErr .distSearch "src/nng_core.c" 1024
    pure (e, ptrBuf cl.label, ta.buf)
  | some r => do
    asrtM (rs = false → r.numOk = num)
    let l ← useK (ta.id :: ptrIds nnb ++ ptrIds cl.label) (copyFromNNDbg cfg r.numOk (if rs then r.outQ else ta.buf) r.nn (ptrBuf cl.label))
    freePtr nnb
    pure (.ok, l, if rs then r.outQ else ta.buf)

/-- Listing the assigned points, src/nng_core.c:469-478, with the assertions of lines 470 and 478. -/
def listAssignedDbg (cfg : Cfg) (n num : Nat) (labels : Buf Int) (b : Buf Nat) : Option (Buf Nat) := do
  asrt (n ≤ cfg.pointMax)
  let (b, w) ← forLt 0 n (b, 0) fun i (b, w) => do
    let l ← labels.get i
    if l ≠ cfg.na then do
      let b ← b.set w i
      pure (b, w + 1)
    else pure (b, w)
  asrt (w = num)
  pure b

/-- `seed_or_neighbor`, src/nng_core.c:462-479. -/
def initAssignedDbg (cfg : Cfg) (n num : Nat) (need : Bool) (label : Option (Blk Int)) : M (Except ErrorCode (Option (Blk Nat))) := do
  if need then do
    match ← alloc (Buf.raw num : Buf Nat) with
    | none => fail .noMemory "src/nng_core.c" 467
    | some b => do
      let c ← useK (b.id :: ptrIds label) (listAssignedDbg cfg n num (ptrBuf label) b.buf)
      pure (.ok (some ⟨b.id, c⟩))
  else pure (.ok none)

/-- The choice of the search object by method, src/nng_core.c:568-584 and 606-622. -/
def assignUnassignedDbg (cfg : Cfg) (spi : Spi F) (oa os : Option spi.NN) (um : UnassignedMethod) (cl : Clustering) (num : Nat) (ta : Blk Nat) (rs : Bool) (radius : F) :
    M (ErrorCode × Buf Int × Buf Nat) := do
  if 0 < num then
    if um = .closestAssigned then do
      let o ← useK [] oa
      assignBySearchDbg cfg spi o cl num ta rs radius
    else if um = .closestSeed then do
      let o ← useK [] os
      assignBySearchDbg cfg spi o cl num ta rs radius
    else pure (.ok, ptrBuf cl.label, ta.buf)
  else pure (.ok, ptrBuf cl.label, ta.buf)

/-- The second round, over all points; src/nng_core.c:597-624. -/
def secondRoundDbg (cfg : Cfg) (spi : Spi F) (oa os : Option spi.NN) (um2 : UnassignedMethod) (cl : Clustering) (ta : Blk Nat) (rs2 : Bool) (radius2 : F) :
    M (Buf Int) := do
  if um2 ≠ .ignore then do
    let (c, num) ← useK (ta.id :: ptrIds cl.label) (listUnassigned cfg cl.n none (ptrBuf cl.label) ta.buf)
    let (_, l, _) ← assignUnassignedDbg cfg spi oa os um2 cl num ⟨ta.id, c⟩ rs2 radius2
    pure l
  else pure (ptrBuf cl.label)

/-- The two rounds of assignment by search, src/nng_core.c:554-633. -/
def searchRoundsDbg (cfg : Cfg) (spi : Spi F) (cl : Clustering) (son : Option (Blk Nat)) (oa os : Option spi.NN) (ta : Blk Nat)
    (um : UnassignedMethod) (rs : Bool) (radius : F) (lenPrimary : Nat) (primary : Option (Buf Nat)) (um2 : UnassignedMethod) (rs2 : Bool) (radius2 : F) :
    M (ErrorCode × Option (Blk Int)) := do
  let (c, num) ← useK (ta.id :: ptrIds cl.label) (listUnassigned cfg (if primary.isSome then lenPrimary else cl.n) primary (ptrBuf cl.label) ta.buf)
  let (ec, l, c) ← assignUnassignedDbg cfg spi oa os um cl num ⟨ta.id, c⟩ rs radius
  if ec ≠ .ok then do
    closeAll spi son ta.id oa os
    pure (ec, ptrSet cl.label l)
  else do
    let l ← secondRoundDbg cfg spi oa os um2 { cl with label := ptrSet cl.label l } ⟨ta.id, c⟩ rs2 radius2
    closeAll spi son ta.id oa os
    pure (.ok, ptrSet cl.label l)

/-- Assignment by search, src/nng_core.c:502-633, with the assertion of line 509. -/
def assignRemainingDbg (cfg : Cfg) (spi : Spi F) (cl : Clustering) (total numSon : Nat) (son : Option (Blk Nat)) (sr : SeedResult)
    (um : UnassignedMethod) (rs : Bool) (radius : F) (lenPrimary : Nat) (primary : Option (Buf Nat)) (um2 : UnassignedMethod) (rs2 : Bool) (radius2 : F) :
    M (ErrorCode × Option (Blk Int)) := do
  asrtM (um = .closestAssigned ∨ um2 = .closestAssigned → son.isSome = true)
  match ← initNN spi (decide (um = .closestAssigned ∨ um2 = .closestAssigned)) numSon son 514 with
  | .error ec => do
    freePtr son
    pure (ec, cl.label)
  | .ok oa => do
    match ← initNN spi (decide (um = .closestSeed ∨ um2 = .closestSeed)) sr.count sr.seeds 529 with
    | .error ec => do
      freePtr son
      closeNN spi oa
      pure (ec, cl.label)
    | .ok os => do
      match ← alloc (Buf.raw ((cl.n + (cfg.sizeMax + 1) - total + 1) % (cfg.sizeMax + 1)) : Buf Nat) with
      | none => do
        freePtr son
        closeNN spi oa
        closeNN spi os
        let e ← mkErr .noMemory "src/nng_core.c" 551
        pure (e, cl.label)
      | some ta => searchRoundsDbg cfg spi cl son oa os ta um rs radius lenPrimary primary um2 rs2 radius2

/-- `iscc_make_nng_clusters_from_seeds`, src/nng_core.c:421-634, with the assertions of lines 435-450. -/
def makeClustersDbg (cfg : Cfg) (spi : Spi F) (cl : Clustering) (sr : SeedResult) (nng : Digraph) (ordered : Bool) (um : UnassignedMethod) (rs : Bool) (radius : F)
    (lenPrimary : Nat) (primary : Option (Buf Nat)) (um2 : UnassignedMethod) (rs2 : Bool) (radius2 : F) : M (ErrorCode × Clustering × Digraph) := do
  asrtM (cl.isInitialized cfg = true)
  asrtM (spi.valid = true)
  asrtM (spi.numPoints = cl.n)
  asrtM (0 < sr.count)
  asrtM (sr.seeds.isSome = true)
  asrtValid cfg nng
  asrtNonempty cfg nng
  asrtM (um = .ignore ∨ um = .anyNeighbor ∨ um = .closestAssigned ∨ um = .closestSeed)
  asrtRadius rs radius
  asrtM (um2 = .ignore ∨ um2 = .closestAssigned ∨ um2 = .closestSeed)
  asrtRadius rs2 radius2
  let (l, num) ← assignSeedsMDbg cfg cl sr nng
  let cl := { cl with numClusters := sr.count, label := ptrSet cl.label l }
  if assignDone cl.n num um um2 then pure (.ok, cl, nng)
  else do
    match ← initAssignedDbg cfg cl.n num (decide (um = .closestAssigned ∨ um2 = .closestAssigned)) cl.label with
    | .error ec => pure (ec, cl, nng)
    | .ok son =>
      if um = .anyNeighbor ∨ ordered = true ∧ um = .closestAssigned then do
        let (l, num') ← assignByNngDbg cfg cl nng
        let cl := { cl with label := ptrSet cl.label l }
        if assignDone cl.n (num + num') (afterNng um) um2 then do
          freePtr son
          pure (.ok, cl, nng)
        else do
          let nng ← freeDigraph nng
          let (ec, label) ← assignRemainingDbg cfg spi cl (num + num') num son sr (afterNng um) rs radius lenPrimary primary um2 rs2 radius2
          pure (ec, { cl with label := label }, nng)
      else do
        let nng ← freeDigraph nng
        let (ec, label) ← assignRemainingDbg cfg spi cl num num son sr um rs radius lenPrimary primary um2 rs2 radius2
        pure (ec, { cl with label := label }, nng)

/-! ### src/nng_clustering.c -/

/-- The radii of both stages, src/nng_clustering.c:178-210. -/
def estimateRadiiDbg (cfg : Cfg) (spi : Spi F) (sr : SeedResult) (nng : Digraph) (S : Nat) (r1 r2 : RadiusMethod × F) :
    M (Except ErrorCode ((RadiusMethod × F) × (RadiusMethod × F))) := do
  if r1.1 = .useEstimated ∨ r2.1 = .useEstimated then do
    match ← estimateAvgDbg cfg spi sr nng S with
    | .error ec => do
      freePtr sr.seeds
      pure (.error ec)
    | .ok avg =>
      match useEstimate avg r1 with
      | none => do
        freePtr sr.seeds
        fail .noSolution "src/nng_clustering.c" 197 (some "Infeasible radius constraint.")
      | some r1 =>
        match useEstimate avg r2 with
        | none => do
          freePtr sr.seeds
          fail .noSolution "src/nng_clustering.c" 207 (some "Infeasible radius constraint.")
        | some r2 => pure (.ok (r1, r2))
  else pure (.ok (r1, r2))

/-- `iscc_make_clustering_from_nng`, src/nng_clustering.c:131-241, with the assertions of lines 136-140, 212 and 213. -/
def clusteringFromNngDbg (cfg : Cfg) (spi : Spi F) (cl : Clustering) (nng : Digraph) (o : Options F) (m : SeedMethod) : M (ErrorCode × Clustering × Digraph) := do
  asrtM (cl.isInitialized cfg = true)
  asrtM (spi.valid = true)
  asrtM (spi.numPoints = cl.n)
  asrtValid cfg nng
  asrtNonempty cfg nng
  match ← findSeedsDbg cfg nng m (1 + cl.n / o.sizeConstraint) with
  | .error ec => pure (ec, cl, nng)
  | .ok sr => do
    match ← estimateRadiiDbg cfg spi sr nng o.sizeConstraint (resolveRadius o o.primaryMethod o.primaryRadius o.primarySupplied)
        (resolveRadius o o.secondaryMethod o.secondaryRadius o.secondarySupplied) with
    | .error ec => pure (ec, cl, nng)
    | .ok (r1, r2) => do
      asrtM (r1.1 = .noRadius ∨ r1.1 = .useSupplied)
      asrtM (r2.1 = .noRadius ∨ r2.1 = .useSupplied)
      let (ok, cl) ← ensureLabels cl
      if !ok then do
        freePtr sr.seeds
        let e ← mkErr .noMemory "src/nng_clustering.c" 221
        pure (e, cl, nng)
      else do
        let r ← makeClustersDbg cfg spi cl sr nng (decide (o.numTypes < 2)) o.primaryMethod (decide (r1.1 = .useSupplied)) r1.2 o.lenPrimary o.primary
          o.secondaryMethod (decide (r2.1 = .useSupplied)) r2.2
        freePtr sr.seeds
        pure r

/-- The nearest neighbour digraph, src/nng_clustering.c:85-111, with the assertion of line 98. -/
def buildNngDbg (cfg : Cfg) (spi : Spi F) (n : Nat) (o : Options F) : M (Except ErrorCode Digraph) :=
  if o.numTypes < 2 then
    nngWithSizeDbg cfg spi n o.sizeConstraint o.lenPrimary (o.primary.map fun b => ⟨[], b⟩) (decide (o.seedRadius = .useSupplied)) o.seedSupplied
  else do
    asrtM (o.numTypes ≤ 65535)
    nngWithTypesDbg cfg spi n o.sizeConstraint o.numTypes (o.typeConstraints.getD (Buf.raw 0)) (o.typeLabels.getD (Buf.raw 0)) o.lenPrimary
      (o.primary.map fun b => ⟨[], b⟩) (decide (o.seedRadius = .useSupplied)) o.seedSupplied

/-- `scc_sc_clustering` for the methods that build a digraph, src/nng_clustering.c:85-123, with the assertion of line 114. -/
def clusterByNngDbg (cfg : Cfg) (spi : Spi F) (cl : Clustering) (o : Options F) (m : SeedMethod) : M (ErrorCode × Clustering) := do
  match ← buildNngDbg cfg spi cl.n o with
  | .error ec => pure (ec, cl)
  | .ok nng => do
    asrtNonempty cfg nng
    let (ec, cl, nng) ← clusteringFromNngDbg cfg spi cl nng o m
    let _ ← freeDigraph nng
    pure (ec, cl)

/-- `scc_sc_clustering`, src/nng_clustering.c:52-124. -/
def scClusteringDbg (cfg : Cfg) (spi : Spi F) (o : Options F) (p : Option ClObj) : M (ErrorCode × Option ClObj) := do
  let valid ← isInitialized cfg p
  match p, valid with
  | some ob, true =>
    if !spi.valid then do
      let e ← mkErr .invalidInput "src/nng_clustering.c" 60 (some "Invalid data set object."); pure (e, p)
    else if spi.numPoints ≠ ob.cl.n then do
      let e ← mkErr .invalidInput "src/nng_clustering.c" 63 (some "Number of data points in data set does not match clustering object."); pure (e, p)
    else do
      let ec ← checkClusterOptions o ob.cl.n
      if ec ≠ .ok then pure (ec, p)
      else if ob.cl.numClusters ≠ 0 then do
        let e ← mkErr .notImplemented "src/nng_clustering.c" 70 (some "Cannot refine existing clusterings."); pure (e, p)
      else
        match o.seedMethod with
        | .batches => do
          let (ec, cl) ← clusterBatchesDbg cfg spi ob.cl o.sizeConstraint o.primaryMethod (decide (o.seedRadius = .useSupplied)) o.seedSupplied
            o.lenPrimary o.primary o.batchSize
          touch [ob.id]
          pure (ec, some ⟨ob.id, cl⟩)
        | .method m => do
          let (ec, cl) ← clusterByNngDbg cfg spi ob.cl o m
          touch [ob.id]
          pure (ec, some ⟨ob.id, cl⟩)
        -- not reachable: the options check rejects unknown methods
        | .unknown => useK [] none
  | _, _ => do let e ← mkErr .invalidInput "src/nng_clustering.c" 57 (some "Invalid clustering object."); pure (e, p)

end Scc
