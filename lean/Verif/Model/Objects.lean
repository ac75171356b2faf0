/-
Model of src/scclust.c (clustering objects), src/data_set.c, src/error.c (reading the latest error) and src/scclust_spi.c (registration).
-/
import Verif.Model.DistSearch

namespace Scc

/-! ### Clustering objects: src/clustering_struct.h, src/scclust.c -/

/-- `scc_Clustering`, src/clustering_struct.h:42-61. `label` is the label array (`none` is NULL); user-supplied arrays are blocks too. -/
structure Clustering where
  version : Nat
  n : Nat
  numClusters : Nat
  label : Option (Blk Int)
  external : Bool

/-- `ISCC_CLUSTERING_STRUCT_VERSION`, src/clustering_struct.h:65. -/
def clusteringVersion : Nat := 722587001

/-- A clustering object on the heap: the block of the struct and its contents. A pointer to a clustering is an `Option ClObj`. -/
structure ClObj where
  id : Nat
  cl : Clustering

/-- `scc_is_initialized_clustering`, src/scclust.c:165-175, on a non-NULL pointer. -/
def Clustering.isInitialized (cfg : Cfg) (c : Clustering) : Bool :=
  if c.version ≠ clusteringVersion then false
  else if c.n = 0 then false
  else if cfg.pointMax < c.n then false
  else if cfg.clabelMax < c.numClusters then false
  else if 0 < c.numClusters ∧ c.label.isNone then false
  else true

/-- `scc_is_initialized_clustering`, src/scclust.c:165-175. -/
def isInitialized (cfg : Cfg) : Option ClObj → M Bool
  | none => pure false
  | some o => do touch [o.id]; pure (o.cl.isInitialized cfg)

/-- `scc_init_empty_clustering`, src/scclust.c:48-85. `hasOut` says whether the output parameter is non-NULL. The result is the error code and the
value left in `*out_clustering` (`none` when there is no output parameter). -/
def initEmpty (cfg : Cfg) (n : Nat) (labels : Option (Blk Int)) (hasOut : Bool) : M (ErrorCode × Option ClObj) := do
  if !hasOut then do
    let e ← mkErr .invalidInput "src/scclust.c" 53 (some "Output parameter may not be NULL."); pure (e, none)
  else if n = 0 then do
    let e ← mkErr .invalidInput "src/scclust.c" 60 (some "Clustering must have positive number of data points."); pure (e, none)
  else if cfg.pointMax < n then do
    let e ← mkErr .tooLarge "src/scclust.c" 63 (some "Too many data points (adjust the 'scc_PointIndex' type)."); pure (e, none)
  else if cfg.sizeMax - 1 < n then do
    let e ← mkErr .tooLarge "src/scclust.c" 66 (some "Too many data points."); pure (e, none)
  else do
    match ← alloc (Buf.raw 1 : Buf Unit) with
    | none => do let e ← mkErr .noMemory "src/scclust.c" 70; pure (e, none)
    | some b => pure (.ok, some ⟨b.id, clusteringVersion, n, 0, labels, labels.isSome⟩)

/-- `memcpy` of the first `n` labels of `src` into a fresh array; src/scclust.c:142 and 209. -/
def copyLabels (n : Nat) (src dst : Buf Int) : Option (Buf Int) :=
  forLt 0 n dst fun i dst => do
    -- copying an indeterminate cell is allowed, it stays indeterminate
    if i < src.len ∧ i < dst.len then pure ⟨dst.len, fun j => if j = i then src.cell i else dst.cell j⟩ else none

/-- `scc_init_existing_clustering`, src/scclust.c:88-152. -/
def initExisting (cfg : Cfg) (n numClusters : Nat) (labels : Option (Blk Int)) (deep hasOut : Bool) : M (ErrorCode × Option ClObj) := do
  if !hasOut then do
    let e ← mkErr .invalidInput "src/scclust.c" 95 (some "Output parameter may not be NULL."); pure (e, none)
  else if n = 0 then do
    let e ← mkErr .invalidInput "src/scclust.c" 102 (some "Clustering must have positive number of data points."); pure (e, none)
  else if cfg.pointMax < n then do
    let e ← mkErr .tooLarge "src/scclust.c" 105 (some "Too many data points (adjust the `scc_PointIndex` type)."); pure (e, none)
  else if cfg.sizeMax - 1 < n then do
    let e ← mkErr .tooLarge "src/scclust.c" 108 (some "Too many data points."); pure (e, none)
  else if numClusters = 0 then do
    let e ← mkErr .invalidInput "src/scclust.c" 111 (some "Empty clustering."); pure (e, none)
  else if cfg.clabelMax < numClusters then do
    let e ← mkErr .tooLarge "src/scclust.c" 114 (some "Too many clusters (adjust the `scc_Clabel` type)."); pure (e, none)
  else if cfg.sizeMax < numClusters then do
    let e ← mkErr .tooLarge "src/scclust.c" 117 (some "Too many clusters."); pure (e, none)
  else
    match labels with
    | none => do let e ← mkErr .invalidInput "src/scclust.c" 120 (some "Invalid cluster labels."); pure (e, none)
    | some src => do
      match ← alloc (Buf.raw 1 : Buf Unit) with
      | none => do let e ← mkErr .noMemory "src/scclust.c" 126; pure (e, none)
      | some b =>
        if deep then do
          match ← alloc (Buf.raw n : Buf Int) with
          | none => do
            freeId b.id
            let e ← mkErr .noMemory "src/scclust.c" 140
            pure (e, none)
          | some dst => do
            let buf ← useK [src.id, dst.id] (copyLabels n src.buf dst.buf)
            pure (.ok, some ⟨b.id, clusteringVersion, n, numClusters, some ⟨dst.id, buf⟩, false⟩)
        else pure (.ok, some ⟨b.id, clusteringVersion, n, numClusters, some src, true⟩)

/-- `scc_free_clustering`, src/scclust.c:155-162, on a non-NULL argument; the value left in `*clustering` is always NULL. -/
def freeClustering : Option ClObj → M Unit
  | none => pure ()
  | some o => do
    touch [o.id]
    if !o.cl.external then do
      freePtr o.cl.label
      freeId o.id
    else freeId o.id

/-- `scc_copy_clustering`, src/scclust.c:178-217. -/
def copyClustering (cfg : Cfg) (p : Option ClObj) (hasOut : Bool) : M (ErrorCode × Option ClObj) := do
  if !hasOut then do
    let e ← mkErr .invalidInput "src/scclust.c" 182 (some "Output parameter may not be NULL."); pure (e, none)
  else do
    let valid ← isInitialized cfg p
    match p, valid with
    | some o, true => do
      match ← alloc (Buf.raw 1 : Buf Unit) with
      | none => do let e ← mkErr .noMemory "src/scclust.c" 193; pure (e, none)
      | some b =>
        if 0 < o.cl.numClusters then do
          match ← alloc (Buf.raw o.cl.n : Buf Int) with
          | none => do
            freeId b.id
            let e ← mkErr .noMemory "src/scclust.c" 207
            pure (e, none)
          | some dst => do
            let buf ← useK (dst.id :: ptrIds o.cl.label) (copyLabels o.cl.n (ptrBuf o.cl.label) dst.buf)
            pure (.ok, some ⟨b.id, clusteringVersion, o.cl.n, o.cl.numClusters, some ⟨dst.id, buf⟩, false⟩)
        else pure (.ok, some ⟨b.id, clusteringVersion, o.cl.n, o.cl.numClusters, none, false⟩)
    | _, _ => do let e ← mkErr .invalidInput "src/scclust.c" 189 (some "Invalid clustering object."); pure (e, none)

/-- `scc_get_clustering_info`, src/scclust.c:220-232: the error code and the two values written to the output parameters (if not NULL). -/
def getInfo (cfg : Cfg) (p : Option ClObj) : M (ErrorCode × Option (Nat × Nat)) := do
  let valid ← isInitialized cfg p
  match p, valid with
  | some o, true => pure (.ok, some (o.cl.n, o.cl.numClusters))
  | _, _ => do let e ← mkErr .invalidInput "src/scclust.c" 225 (some "Invalid clustering object."); pure (e, none)

/-- The two loops of `scc_get_cluster_labels`, src/scclust.c:252-258. -/
def exportLabels (cfg : Cfg) (n len : Nat) (labels out : Buf Int) : Option (Buf Int) := do
  let out ← forLt 0 (min len n) out fun i out => do
    let l ← labels.get i
    out.set i l
  forLt (min len n) len out fun i out => out.set i cfg.na

/-- `scc_get_cluster_labels`, src/scclust.c:235-261. The output buffer belongs to the user. -/
def getLabels (cfg : Cfg) (p : Option ClObj) (len : Nat) (out : Option (Buf Int)) : M (ErrorCode × Option (Buf Int)) := do
  let valid ← isInitialized cfg p
  match p, valid with
  | some o, true =>
    if o.cl.numClusters = 0 then do
      let e ← mkErr .invalidInput "src/scclust.c" 243 (some "Empty clustering."); pure (e, out)
    else if len = 0 then do
      let e ← mkErr .invalidInput "src/scclust.c" 246; pure (e, out)
    else
      match out with
      | none => do let e ← mkErr .invalidInput "src/scclust.c" 249 (some "Output parameter may not be NULL."); pure (e, none)
      | some b => do
        let b ← useK (ptrIds o.cl.label) (exportLabels cfg o.cl.n len (ptrBuf o.cl.label) b)
        pure (.ok, some b)
  | _, _ => do let e ← mkErr .invalidInput "src/scclust.c" 240 (some "Invalid clustering object."); pure (e, out)

/-! ### Data sets: src/data_set.c -/

/-- A data set on the heap. -/
structure DsObj (F : Type) where
  id : Nat
  ds : DataSet F

/-- `scc_init_data_set`, src/data_set.c:38-86. The product `num_data_points * num_dimensions` is computed in 64 bits. -/
def initDataSet {F : Type} (cfg : Cfg) (n dims len : Nat) (data : Option (Buf F)) (hasOut : Bool) : M (ErrorCode × Option (DsObj F)) := do
  if !hasOut then do
    let e ← mkErr .invalidInput "src/data_set.c" 45 (some "Output parameter may not be NULL."); pure (e, none)
  else if n = 0 then do
    let e ← mkErr .invalidInput "src/data_set.c" 52 (some "Data set must have positive number of data points."); pure (e, none)
  else if cfg.pointMax < n then do
    let e ← mkErr .tooLarge "src/data_set.c" 55 (some "Too many data points (adjust the `scc_PointIndex` type)."); pure (e, none)
  else if cfg.sizeMax - 1 < n then do
    let e ← mkErr .tooLarge "src/data_set.c" 58 (some "Too many data points."); pure (e, none)
  else if dims = 0 then do
    let e ← mkErr .invalidInput "src/data_set.c" 61 (some "Data set must have positive number of dimensions."); pure (e, none)
  else if 65535 < dims then do
    let e ← mkErr .tooLarge "src/data_set.c" 64 (some "Too many data dimensions."); pure (e, none)
  else if len < u64 (n * dims) then do
    let e ← mkErr .invalidInput "src/data_set.c" 67 (some "Invalid data matrix."); pure (e, none)
  else if data.isNone then do
    let e ← mkErr .invalidInput "src/data_set.c" 70 (some "Invalid data matrix."); pure (e, none)
  else do
    match ← alloc (Buf.raw 1 : Buf Unit) with
    | none => do let e ← mkErr .noMemory "src/data_set.c" 74; pure (e, none)
    | some b => pure (.ok, some ⟨b.id, dataSetVersion, n, dims, data⟩)

/-- `scc_free_data_set`, src/data_set.c:89-95. -/
def freeDataSet {F : Type} : Option (DsObj F) → M Unit
  | none => pure ()
  | some o => freeId o.id

/-! ### Latest error: src/error.c -/

/-- The message for an error code without message, src/error.c:83-107. -/
def defaultMsg : ErrorCode → String
  | .unknownError => "Unkonwn error."
  | .invalidInput => "Function parameters are invalid."
  | .noMemory => "Cannot allocate required memory."
  | .noSolution => "Clustering problem has no solution."
  | .tooLarge => "Clustering problem is too large."
  | .distSearch => "Failed to calculate distances."
  | .notImplemented => "Functionality not yet implemented."
  | .ok => "Unknown error code."

/-- The full text describing an error record, src/error.c:72-113. -/
def errText (e : ErrInfo) : String :=
  if e.code = .ok then "(scclust) No error."
  else "(scclust:" ++ e.file ++ ":" ++ toString e.line ++ ") " ++ e.msg.getD (defaultMsg e.code)

/-- What `snprintf(buffer, len, ...)` stores for the given text: at most `len - 1` characters, then NUL (C11 7.21.6.5). Characters
beyond are not written. -/
def snprintf (len : Nat) (text : String) (buf : Buf Char) : Option (Buf Char) := do
  let t := text.toList.take (len - 1)
  let buf ← forLt 0 t.length buf fun i buf => buf.set i (t.getD i (Char.ofNat 0))
  buf.set t.length (Char.ofNat 0)

/-- `scc_get_latest_error`, src/error.c:67-116. Encoding errors of `snprintf` cannot occur for these formats and are not modelled. -/
def getLatestError (len : Nat) (buf : Option (Buf Char)) : M (Bool × Option (Buf Char)) := fun w =>
  match buf with
  | none => some ((false, none), w)
  | some b =>
    if len = 0 then some ((false, some b), w)
    else (snprintf len (errText w.err) b).map fun b => ((true, some b), w)

/-! ### Registration of distance functions: src/scclust_spi.c

Function pointers are opaque values of a type `P`. -/

/-- `iscc_dist_functions_struct`, src/dist_search.h:34-45. -/
structure DistFuns (P : Type) where
  checkDataSet : P
  numDataPoints : P
  getDistMatrix : P
  getDistRows : P
  initMax : P
  getMax : P
  closeMax : P
  initNN : P
  nnSearch : P
  closeNN : P

/-- The arguments of `scc_set_dist_functions`: each may be NULL. -/
abbrev DistFunArgs (P : Type) := DistFuns (Option P)

/-- `scc_reset_dist_functions`, src/scclust_spi.c:51-67. `imp` are the built-in functions. -/
def resetDistFunctions {P : Type} (imp _cur : DistFuns P) : Bool × DistFuns P := (true, imp)

/-- `scc_set_dist_functions`, src/scclust_spi.c:70-122. Returns the return value and the new table. -/
def setDistFunctions {P : Type} (a : DistFunArgs P) (cur : DistFuns P) : Bool × DistFuns P :=
  let t := match a.checkDataSet with | some f => { cur with checkDataSet := f } | none => cur
  let t := match a.numDataPoints with | some f => { t with numDataPoints := f } | none => t
  let t := match a.getDistMatrix with | some f => { t with getDistMatrix := f } | none => t
  let t := match a.getDistRows with | some f => { t with getDistRows := f } | none => t
  match a.initMax, a.getMax, a.closeMax with
  | some f, some g, some h => setNN a { t with initMax := f, getMax := g, closeMax := h }
  | none, none, none => setNN a t
  | _, _, _ => (false, t)
where
  /-- The last part, src/scclust_spi.c:108-121. -/
  setNN {P : Type} (a : DistFunArgs P) (t : DistFuns P) : Bool × DistFuns P :=
    match a.initNN, a.nnSearch, a.closeNN with
    | some f, some g, some h => (true, { t with initNN := f, nnSearch := g, closeNN := h })
    | none, none, none => (true, t)
    | _, _, _ => (false, t)

end Scc
