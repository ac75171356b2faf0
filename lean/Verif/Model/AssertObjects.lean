/-
The functions of src/scclust.c and src/utilities.c that contain assertions, in a build with `--enable-assert`. They differ from the functions in Model/Objects.lean, Model/Options.lean and Model/Stats.lean only by
the assertions.
-/
import Verif.Model.Assert
import Verif.Model.Objects
import Verif.Model.Options
import Verif.Model.Stats

namespace Scc

/-- `assert(iscc_check_input_clustering(tmp_cl))` before the object is returned, src/scclust.c:80, 147 and 212. -/
def returnChecked (cfg : Cfg) (ob : ClObj) : M (ErrorCode × Option ClObj) := do
  let ok ← isInitialized cfg (some ob)
  asrtM (ok = true)
  pure (.ok, some ob)

/-- `scc_init_empty_clustering`, src/scclust.c:48-85, with the assertion in line 80. -/
def initEmptyDbg (cfg : Cfg) (n : Nat) (labels : Option (Blk Int)) (hasOut : Bool) : M (ErrorCode × Option ClObj) := do
  if !hasOut then do
    let e ← mkErr .invalidInput "src/scclust.c" 53 (some "Output parameter may not be NULL."); pure (e, none)
  else if n = 0 then do
    let e ← mkErr .invalidInput "src/scclust.c" 60 (some "Clustering must have positive number of data points."); pure (e, none)
  else if cfg.pointMax < n then do
    let e ← mkErr .tooLarge "src/scclust.c" 63 (some "Too many data points (adjust the 'scc_PointIndex' type)."); pure (e, none)
  else if cfg.sizeMax - 1 < n then do
    let e ← mkErr .tooLarge "src/scclust.c" 66 (some "Too many data points."); pure (e, none)
  else do
    match ← alloc (Buf.raw 1 : Buf Unit) with
    | none => do let e ← mkErr .noMemory "src/scclust.c" 70; pure (e, none)
    | some b => returnChecked cfg ⟨b.id, clusteringVersion, n, 0, labels, labels.isSome⟩

/-- `scc_init_existing_clustering`, src/scclust.c:88-152, with the assertion in line 147. -/
def initExistingDbg (cfg : Cfg) (n numClusters : Nat) (labels : Option (Blk Int)) (deep hasOut : Bool) : M (ErrorCode × Option ClObj) := do
  if !hasOut then do
    let e ← mkErr .invalidInput "src/scclust.c" 95 (some "Output parameter may not be NULL."); pure (e, none)
  else if n = 0 then do
    let e ← mkErr .invalidInput "src/scclust.c" 102 (some "Clustering must have positive number of data points."); pure (e, none)
  else if cfg.pointMax < n then do
    let e ← mkErr .tooLarge "src/scclust.c" 105 (some "Too many data points (adjust the `scc_PointIndex` type)."); pure (e, none)
  else if cfg.sizeMax - 1 < n then do
    let e ← mkErr .tooLarge "src/scclust.c" 108 (some "Too many data points."); pure (e, none)
  else if numClusters = 0 then do
    let e ← mkErr .invalidInput "src/scclust.c" 111 (some "Empty clustering."); pure (e, none)
  else if cfg.clabelMax < numClusters then do
    let e ← mkErr .tooLarge "src/scclust.c" 114 (some "Too many clusters (adjust the `scc_Clabel` type)."); pure (e, none)
  else if cfg.sizeMax < numClusters then do
    let e ← mkErr .tooLarge "src/scclust.c" 117 (some "Too many clusters."); pure (e, none)
  else
    match labels with
    | none => do let e ← mkErr .invalidInput "src/scclust.c" 120 (some "Invalid cluster labels."); pure (e, none)
    | some src => do
      match ← alloc (Buf.raw 1 : Buf Unit) with
      | none => do let e ← mkErr .noMemory "src/scclust.c" 126; pure (e, none)
      | some b =>
        if deep then do
          match ← alloc (Buf.raw n : Buf Int) with
          | none => do
            freeId b.id
            let e ← mkErr .noMemory "src/scclust.c" 140
            pure (e, none)
          | some dst => do
            let buf ← useK [src.id, dst.id] (copyLabels n src.buf dst.buf)
            returnChecked cfg ⟨b.id, clusteringVersion, n, numClusters, some ⟨dst.id, buf⟩, false⟩
        else returnChecked cfg ⟨b.id, clusteringVersion, n, numClusters, some src, true⟩

/-- `scc_copy_clustering`, src/scclust.c:178-217, with the assertion in line 212. -/
def copyClusteringDbg (cfg : Cfg) (p : Option ClObj) (hasOut : Bool) : M (ErrorCode × Option ClObj) := do
  if !hasOut then do
    let e ← mkErr .invalidInput "src/scclust.c" 182 (some "Output parameter may not be NULL."); pure (e, none)
  else do
    let valid ← isInitialized cfg p
    match p, valid with
    | some o, true => do
      match ← alloc (Buf.raw 1 : Buf Unit) with
      | none => do let e ← mkErr .noMemory "src/scclust.c" 193; pure (e, none)
      | some b =>
        if 0 < o.cl.numClusters then do
          match ← alloc (Buf.raw o.cl.n : Buf Int) with
          | none => do
            freeId b.id
            let e ← mkErr .noMemory "src/scclust.c" 207
            pure (e, none)
          | some dst => do
            let buf ← useK (dst.id :: ptrIds o.cl.label) (copyLabels o.cl.n (ptrBuf o.cl.label) dst.buf)
            returnChecked cfg ⟨b.id, clusteringVersion, o.cl.n, o.cl.numClusters, some ⟨dst.id, buf⟩, false⟩
        else returnChecked cfg ⟨b.id, clusteringVersion, o.cl.n, o.cl.numClusters, none, false⟩
    | _, _ => do let e ← mkErr .invalidInput "src/scclust.c" 189 (some "Invalid clustering object."); pure (e, none)

variable {F : Type} [FloatOps F]

/-- `scc_check_clustering`, src/utilities.c:76-172, with the assertion in line 102. -/
def checkClusteringDbg (cfg : Cfg) (p : Option ClObj) (o : Options F) (hasOut : Bool) : M (ErrorCode × Option Bool) := do
  if !hasOut then do
    let e ← mkErr .invalidInput "src/utilities.c" 83 (some "Output parameter may not be NULL."); pure (e, none)
  else do
    let valid ← isInitialized cfg p
    match p, valid with
    | some ob, true =>
      if ob.cl.numClusters = 0 then do
        let e ← mkErr .invalidInput "src/utilities.c" 90 (some "Empty clustering."); pure (e, some false)
      else do
        let ec ← checkClusterOptions o ob.cl.n
        if ec ≠ .ok then pure (ec, some false)
        else do
          asrtM (ob.cl.numClusters ≤ cfg.clabelMax)
          let r1 ← useK (ptrIds ob.cl.label) (labelsInRange cfg ob.cl.n ob.cl.numClusters (ptrBuf ob.cl.label))
          if !r1 then pure (.ok, some false)
          else do
            let r2 ← useK (ptrIds ob.cl.label) (primaryAssigned cfg o.primary o.lenPrimary (ptrBuf ob.cl.label))
            if !r2 then pure (.ok, some false)
            else do
              let (ec, ok) ← checkCounts cfg ob.cl o
              pure (ec, some ok)
    | _, _ => do let e ← mkErr .invalidInput "src/utilities.c" 87 (some "Invalid clustering object."); pure (e, some false)

/-- With all arrays, src/utilities.c:251-322, with the assertion in line 256. -/
def statsRunDbg (cfg : Cfg) (spi : Spi F) (cl : Clustering) (st : Stats F) (sizes store ends : Blk Nat) (scratch : Blk F) : M (ErrorCode × Option (Stats F)) := do
  let e ← useK [sizes.id, ends.id] (statEnds cl.numClusters sizes.buf ends.buf)
  asrtM (cl.n ≤ cfg.pointMax)
  let (e, s) ← useK (ends.id :: store.id :: ptrIds cl.label) (statMembers cfg cl.n (ptrBuf cl.label) e store.buf)
  match ← foldBM (statsStep cfg spi ⟨sizes.id, store.id, ends.id, scratch.id⟩ sizes.buf e s) (st, scratch.buf) (List.range cl.numClusters) with
  | .stop _ => do
    freeId sizes.id
    freeId store.id
    freeId ends.id
    freeId scratch.id
    let e ← mkErr .distSearch "src/utilities.c" 277
    pure (e, none)
  | .next (st, _) => do
    freeId sizes.id
    freeId store.id
    freeId ends.id
    freeId scratch.id
    pure (.ok, some (finishStats st))

/-- Allocation of the arrays, src/utilities.c:239-249. -/
def statsArraysDbg (cfg : Cfg) (spi : Spi F) (cl : Clustering) (st : Stats F) (sizes : Blk Nat) : M (ErrorCode × Option (Stats F)) := do
  let store ← alloc (Buf.raw st.numAssigned : Buf Nat)
  let ends ← alloc (Buf.raw cl.numClusters : Buf Nat)
  let scratch ← alloc (Buf.raw (scratchLen cfg st.maxSize) : Buf F)
  match store, ends, scratch with
  | some store, some ends, some scratch => statsRunDbg cfg spi cl st sizes store ends scratch
  | store, ends, scratch => do
    freeId sizes.id
    freePtr store
    freePtr ends
    freePtr scratch
    let e ← mkErr .noMemory "src/utilities.c" 248
    pure (e, none)

/-- The function after the checks, src/utilities.c:195-322. -/
def statsMainDbg (cfg : Cfg) (spi : Spi F) (cl : Clustering) : M (ErrorCode × Option (Stats F)) := do
  match ← alloc (Buf.fill cl.numClusters 0 : Buf Nat) with
  | none => do
    let e ← mkErr .noMemory "src/utilities.c" 196
    pure (e, none)
  | some b => do
    let sizes ← useK (b.id :: ptrIds cl.label) (countSizes cfg cl.n (ptrBuf cl.label) b.buf)
    let st ← useK [b.id] (sizeStats cl.numClusters sizes (startStats cl.n cl.numClusters))
    if st.populated = 0 then do
      freeId b.id
      pure (.ok, some st)
    else statsArraysDbg cfg spi cl st ⟨b.id, sizes⟩

/-- `scc_get_clustering_stats`, src/utilities.c:174-323, with the assertion in line 256. -/
def getStatsDbg (cfg : Cfg) (spi : Spi F) (p : Option ClObj) (hasOut : Bool) : M (ErrorCode × Option (Stats F)) := do
  if !hasOut then do
    let e ← mkErr .invalidInput "src/utilities.c" 179 (some "Output parameter may not be NULL."); pure (e, none)
  else do
    let valid ← isInitialized cfg p
    match p, valid with
    | some ob, true =>
      match statsError spi ob.cl with
      | some (line, msg) => do
        let e ← mkErr .invalidInput "src/utilities.c" line (some msg)
        pure (e, some nullStats)
      | none => do
        let (e, st) ← statsMainDbg cfg spi ob.cl
        pure (e, some (st.getD nullStats))
    | _, _ => do let e ← mkErr .invalidInput "src/utilities.c" 183 (some "Invalid clustering object."); pure (e, some nullStats)

end Scc
