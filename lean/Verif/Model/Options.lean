/-
Model of src/utilities.c: default options, option validation, clustering check, clustering statistics.
-/
import Verif.Model.Objects

namespace Scc

/-- `scc_SeedMethod`, templates/scclust.h:269-316; `unknown` is any other value of the enum's integer type. -/
inductive OptSeedMethod
  | method (m : SeedMethod)
  | batches
  | unknown
  deriving DecidableEq

/-- `scc_UnassignedMethod`, templates/scclust.h:318-323; `unknown` is any other value. -/
inductive UnassignedMethod
  | ignore | anyNeighbor | closestAssigned | closestSeed | unknown
  deriving DecidableEq

/-- `scc_RadiusMethod`, templates/scclust.h:326-331; `unknown` is any other value. -/
inductive RadiusMethod
  | noRadius | useSupplied | useSeedRadius | useEstimated | unknown
  deriving DecidableEq

/-- `scc_ClusterOptions`, templates/scclust.h:334-359. Arrays belong to the user; `none` is NULL. -/
structure Options (F : Type) where
  version : Nat
  sizeConstraint : Nat
  numTypes : Nat
  typeConstraints : Option (Buf Nat)
  lenTypeLabels : Nat
  typeLabels : Option (Buf Nat)
  seedMethod : OptSeedMethod
  lenPrimary : Nat
  primary : Option (Buf Nat)
  primaryMethod : UnassignedMethod
  secondaryMethod : UnassignedMethod
  seedRadius : RadiusMethod
  seedSupplied : F
  primaryRadius : RadiusMethod
  primarySupplied : F
  secondaryRadius : RadiusMethod
  secondarySupplied : F
  batchSize : Nat

/-- `ISCC_OPTIONS_STRUCT_VERSION`, src/utilities.c:46. -/
def optionsVersion : Nat := 722678001

/-- `ISCC_TYPELABEL_MAX`, templates/scclust_types.h:56. -/
def typeLabelMax : Nat := 65535

variable {F : Type} [FloatOps F]

/-- `scc_get_default_options`, src/utilities.c:53-75. -/
def defaultOptions : Options F where
  version := optionsVersion
  sizeConstraint := 0
  numTypes := 0
  typeConstraints := none
  lenTypeLabels := 0
  typeLabels := none
  seedMethod := .method .lexical
  lenPrimary := 0
  primary := none
  primaryMethod := .anyNeighbor
  secondaryMethod := .ignore
  seedRadius := .noRadius
  seedSupplied := FloatOps.zero
  primaryRadius := .useSeedRadius
  primarySupplied := FloatOps.zero
  secondaryRadius := .useSeedRadius
  secondarySupplied := FloatOps.zero
  batchSize := 0

/-- The checks of the types, src/utilities.c:343-369: the line, code and message of the first failing check. -/
def typeOptionsError (o : Options F) (n : Nat) : Option (ErrorCode × Nat × String) :=
  if o.numTypes < 2 then
    if o.typeConstraints.isSome then some (.invalidInput, 345, "Invalid type constraints.")
    else if o.lenTypeLabels ≠ 0 then some (.invalidInput, 348, "Invalid type labels.")
    else if o.typeLabels.isSome then some (.invalidInput, 351, "Invalid type labels.")
    else none
  else if typeLabelMax < o.numTypes then some (.tooLarge, 355, "Too many data point types.")
  else if 65535 < o.numTypes then some (.tooLarge, 358, "Too many data point types.")
  else if o.typeConstraints.isNone then some (.invalidInput, 361, "Invalid type constraints.")
  else if o.lenTypeLabels < n then some (.invalidInput, 364, "Invalid type labels.")
  else if o.typeLabels.isNone then some (.invalidInput, 367, "Invalid type labels.")
  else none

/-- The loop that checks that the primary points are strictly increasing, src/utilities.c:382-388. -/
def primarySorted (len : Nat) (b : Buf Nat) : Option Bool := do
  match ← forLtB 1 len () (fun i _ => do
      let x ← b.get (i - 1)
      let y ← b.get i
      if y ≤ x then pure (Ctl.stop ()) else pure (Ctl.next ())) with
  | .stop _ => pure false
  | .next _ => pure true

/-- The check of the primary points, src/utilities.c:379-391. -/
def primaryOptionsError (o : Options F) : Option (Option (ErrorCode × Nat × String)) :=
  match o.primary with
  | some b =>
    if o.lenPrimary = 0 then some (some (.invalidInput, 380, "Invalid primary data points."))
    else do
      if ← primarySorted o.lenPrimary b then pure none
      else pure (some (.invalidInput, 385, "`primary_data_points` is not sorted."))
  | none =>
    if 0 < o.lenPrimary then some (some (.invalidInput, 390, "Invalid primary data points."))
    else some none

/-- The remaining checks, src/utilities.c:393-443. -/
def methodOptionsError (o : Options F) : Option (ErrorCode × Nat × String) :=
  if o.primaryMethod = .unknown then some (.invalidInput, 397, "Unknown unassigned method.")
  else if o.secondaryMethod = .anyNeighbor then some (.invalidInput, 400, "Invalid unassigned method.")
  else if o.secondaryMethod = .unknown then some (.invalidInput, 405, "Unknown unassigned method.")
  else if o.seedRadius ≠ .noRadius ∧ o.seedRadius ≠ .useSupplied then some (.invalidInput, 409, "Invalid radius method.")
  else if o.seedRadius = .useSupplied ∧ FloatOps.le o.seedSupplied FloatOps.zero then some (.invalidInput, 412, "Invalid radius.")
  else if o.primaryRadius = .unknown then some (.invalidInput, 418, "Invalid radius method.")
  else if o.primaryRadius = .useSupplied ∧ FloatOps.le o.primarySupplied FloatOps.zero then some (.invalidInput, 421, "Invalid radius.")
  else if o.secondaryRadius = .unknown then some (.invalidInput, 427, "Invalid radius method.")
  else if o.secondaryRadius = .useSupplied ∧ FloatOps.le o.secondarySupplied FloatOps.zero then some (.invalidInput, 430, "Invalid radius.")
  else if o.seedMethod = .batches then
    if 2 ≤ o.numTypes then some (.notImplemented, 435, "SCC_SM_BATCHES cannot be used with type constraints.")
    else if o.secondaryMethod ≠ .ignore then
      some (.notImplemented, 438, "SCC_SM_BATCHES must be used with `secondary_unassigned_method = SCC_UM_IGNORE`.")
    else if o.primaryRadius ≠ .useSeedRadius then
      some (.notImplemented, 441, "SCC_SM_BATCHES must be used with `primary_radius = SCC_RM_USE_SEED_RADIUS`.")
    else none
  else none

/-- All checks in order; the first error found. Models `iscc_check_cluster_options`, src/utilities.c:330-446. -/
def optionsError (o : Options F) (n : Nat) : Option (Option (ErrorCode × Nat × String)) :=
  if o.version ≠ optionsVersion then some (some (.invalidInput, 334, "Incompatible scc_ClusterOptions version."))
  else if o.sizeConstraint < 2 then some (some (.invalidInput, 337, "Size constraint must be 2 or greater."))
  else if n < o.sizeConstraint then some (some (.noSolution, 340, "Fewer data points than size constraint."))
  else
    match typeOptionsError o n with
    | some e => some (some e)
    | none =>
      if o.seedMethod = .unknown then some (some (.invalidInput, 377, "Unknown seed method."))
      else do
        match ← primaryOptionsError o with
        | some e => pure (some e)
        | none => pure (methodOptionsError o)

/-- `iscc_check_cluster_options`, src/utilities.c:330-446. The options pointer is not checked for NULL by the code; the model takes the struct. -/
def checkClusterOptions (o : Options F) (n : Nat) : M ErrorCode := do
  match ← useK [] (optionsError o n) with
  | some (ec, line, msg) => mkErr ec "src/utilities.c" line (some msg)
  | none => pure .ok

/-! ### `scc_check_clustering` -/

/-- The first loop, src/utilities.c:105-110: are all labels NA or in range? -/
def labelsInRange (cfg : Cfg) (n numClusters : Nat) (labels : Buf Int) : Option Bool := do
  match ← forLtB 0 n () (fun i _ => do
      let l ← labels.get i
      if 0 < l ∧ l < (numClusters : Int) then pure (Ctl.next ())
      else if l = 0 then pure (Ctl.next ())
      else if l = cfg.na then pure (Ctl.next ())
      else pure (Ctl.stop ())) with
  | .stop _ => pure false
  | .next _ => pure true

/-- The second loop, src/utilities.c:112-118: are all primary points assigned? -/
def primaryAssigned (cfg : Cfg) (primary : Option (Buf Nat)) (lenPrimary : Nat) (labels : Buf Int) : Option Bool :=
  match primary with
  | none => some true
  | some b => do
    match ← forLtB 0 lenPrimary () (fun i _ => do
        let p ← b.get i
        let l ← labels.get p
        if l = cfg.na then pure (Ctl.stop ()) else pure (Ctl.next ())) with
    | .stop _ => pure false
    | .next _ => pure true

/-- Access to an array through a label used as index: negative labels are out of bounds. -/
def labelIdx (l : Int) : Option Nat := if 0 ≤ l then some l.toNat else none

/-- Counting cluster sizes, src/utilities.c:124-128 and 198-202. -/
def countSizes (cfg : Cfg) (n : Nat) (labels : Buf Int) (sizes : Buf Nat) : Option (Buf Nat) :=
  forLt 0 n sizes fun i sizes => do
    let l ← labels.get i
    if l ≠ cfg.na then do
      let c ← labelIdx l
      let k ← sizes.get c
      sizes.set c (k + 1)
    else pure sizes

/-- Checking the sizes, src/utilities.c:130-135. -/
def sizesOk (numClusters sizeConstraint : Nat) (sizes : Buf Nat) : Option Bool := do
  match ← forLtB 0 numClusters () (fun i _ => do
      let k ← sizes.get i
      if k < sizeConstraint then pure (Ctl.stop ()) else pure (Ctl.next ())) with
  | .stop _ => pure false
  | .next _ => pure true

/-- Counting cluster sizes by type, src/utilities.c:144-148. -/
def countTypeSizes (cfg : Cfg) (n numTypes : Nat) (labels : Buf Int) (types : Buf Nat) (sizes : Buf Nat) : Option (Buf Nat) :=
  forLt 0 n sizes fun i sizes => do
    let l ← labels.get i
    if l ≠ cfg.na then do
      let c ← labelIdx l
      let t ← types.get i
      let k ← sizes.get (c * numTypes + t)
      sizes.set (c * numTypes + t) (k + 1)
    else pure sizes

/-- The check of one cluster, src/utilities.c:151-162. -/
def clusterTypesOk (numTypes sizeConstraint : Nat) (tcs sizes : Buf Nat) (i : Nat) : Option Bool := do
  match ← forLtB 0 numTypes 0 (fun t total => do
      let k ← sizes.get (i * numTypes + t)
      let c ← tcs.get t
      if k < c then pure (Ctl.stop ()) else pure (Ctl.next (total + k))) with
  | .stop _ => pure false
  | .next total => pure (decide (sizeConstraint ≤ total))

/-- Checking the sizes by type, src/utilities.c:150-163. -/
def typeSizesOk (numClusters numTypes sizeConstraint : Nat) (tcs sizes : Buf Nat) : Option Bool := do
  match ← forLtB 0 numClusters () (fun i _ => do
      if ← clusterTypesOk numTypes sizeConstraint tcs sizes i then pure (Ctl.next ()) else pure (Ctl.stop ())) with
  | .stop _ => pure false
  | .next _ => pure true

/-- The part of `scc_check_clustering` that counts, src/utilities.c:120-170. -/
def checkCounts (cfg : Cfg) (cl : Clustering) (o : Options F) : M (ErrorCode × Bool) := do
  if o.numTypes < 2 then do
    match ← alloc (Buf.fill cl.numClusters 0 : Buf Nat) with
    | none => do let e ← mkErr .noMemory "src/utilities.c" 122; pure (e, false)
    | some b => do
      let sizes ← useK (b.id :: ptrIds cl.label) (countSizes cfg cl.n (ptrBuf cl.label) b.buf)
      let ok ← useK [b.id] (sizesOk cl.numClusters o.sizeConstraint sizes)
      freeId b.id
      pure (.ok, ok)
  else do
    match ← alloc (Buf.fill ((o.numTypes * cl.numClusters) % (cfg.sizeMax + 1)) 0 : Buf Nat) with
    | none => do let e ← mkErr .noMemory "src/utilities.c" 142; pure (e, false)
    | some b => do
      let sizes ← useK (b.id :: ptrIds cl.label)
        (countTypeSizes cfg cl.n o.numTypes (ptrBuf cl.label) (o.typeLabels.getD (Buf.raw 0)) b.buf)
      let ok ← useK [b.id] (typeSizesOk cl.numClusters o.numTypes o.sizeConstraint (o.typeConstraints.getD (Buf.raw 0)) sizes)
      freeId b.id
      pure (.ok, ok)

/-- `scc_check_clustering`, src/utilities.c:78-171. Returns the error code and the value of `*out_is_OK` (`none` if the pointer is NULL). -/
def checkClustering (cfg : Cfg) (p : Option ClObj) (o : Options F) (hasOut : Bool) : M (ErrorCode × Option Bool) := do
  if !hasOut then do
    let e ← mkErr .invalidInput "src/utilities.c" 83 (some "Output parameter may not be NULL."); pure (e, none)
  else do
    let valid ← isInitialized cfg p
    match p, valid with
    | some ob, true =>
      if ob.cl.numClusters = 0 then do
        let e ← mkErr .invalidInput "src/utilities.c" 90 (some "Empty clustering."); pure (e, some false)
      else do
        let ec ← checkClusterOptions o ob.cl.n
        if ec ≠ .ok then pure (ec, some false)
        else do
          let r1 ← useK (ptrIds ob.cl.label) (labelsInRange cfg ob.cl.n ob.cl.numClusters (ptrBuf ob.cl.label))
          if !r1 then pure (.ok, some false)
          else do
            let r2 ← useK (ptrIds ob.cl.label) (primaryAssigned cfg o.primary o.lenPrimary (ptrBuf ob.cl.label))
            if !r2 then pure (.ok, some false)
            else do
              let (ec, ok) ← checkCounts cfg ob.cl o
              pure (ec, some ok)
    | _, _ => do let e ← mkErr .invalidInput "src/utilities.c" 87 (some "Invalid clustering object."); pure (e, some false)

end Scc
