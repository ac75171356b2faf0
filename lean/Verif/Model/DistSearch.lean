/-
Model of src/dist_search_imp.c, the built-in distance search, and of the data set object (src/data_set_struct.h).
-/
import Verif.Model.Spi

namespace Scc

variable {F : Type} [FloatOps F]

/-- `scc_DataSet`, src/data_set_struct.h:37-42. `data` is the user's matrix. -/
structure DataSet (F : Type) where
  version : Nat
  n : Nat
  dims : Nat
  data : Option (Buf F)

/-- `ISCC_DATASET_STRUCT_VERSION`, src/data_set_struct.h:45. -/
def dataSetVersion : Nat := 722328001

/-- The matrix behind a possibly NULL pointer. -/
def DataSet.buf (ds : DataSet F) : Buf F := ds.data.getD (Buf.raw 0)

/-- `scc_is_initialized_data_set`, src/data_set.c:98-106, on a non-NULL pointer. -/
def DataSet.isInitialized (ds : DataSet F) : Bool :=
  if ds.version ≠ dataSetVersion then false
  else if ds.n = 0 then false
  else if ds.dims = 0 then false
  else if ds.data.isNone then false
  else true

/-- `iscc_get_sq_dist`, src/dist_search_imp.c:37-56. -/
def sqDist (ds : DataSet F) (i j : Nat) : Option F :=
  forNe 0 ds.dims FloatOps.zero fun t acc => do
    let a ← ds.buf.get (i * ds.dims + t)
    let b ← ds.buf.get (j * ds.dims + t)
    let d := FloatOps.sub a b
    pure (FloatOps.add acc (FloatOps.mul d d))

/-! ### Distance matrices -/

/-- `iscc_imp_get_dist_matrix`, src/dist_search_imp.c:81-107. The C code repeats the loop for `point_indices == NULL`; the model has it once
(`idxGet`). -/
def distMatrixK (ds : DataSet F) (len : Nat) (points : Option Arr) (out : Buf F) : Option (Buf F) := do
  let (out, _) ← forLt 0 len (out, 0) fun p1 (out, w) =>
    forLt (p1 + 1) len (out, w) fun p2 (out, w) => do
      let i ← idxGet points p1
      let j ← idxGet points p2
      let d ← sqDist ds i j
      let out ← out.set w (FloatOps.sqrt d)
      pure (out, w + 1)
  pure out

/-- `iscc_imp_get_dist_rows`, src/dist_search_imp.c:110-156. The C code repeats the loops for each combination of NULL arrays. -/
def distRowsK (ds : DataSet F) (lenQ : Nat) (queries : Option Arr) (lenC : Nat) (cols : Option Arr) (out : Buf F) : Option (Buf F) := do
  let (out, _) ← forLt 0 lenQ (out, 0) fun q (out, w) =>
    forLt 0 lenC (out, w) fun c (out, w) => do
      let i ← idxGet queries q
      let j ← idxGet cols c
      let d ← sqDist ds i j
      let out ← out.set w (FloatOps.sqrt d)
      pure (out, w + 1)
  pure out

/-! ### Max dist -/

/-- A search object: `iscc_MaxDistObject` (src/dist_search_imp.c:163-168) and `iscc_NNSearchObject` (src/dist_search_imp.c:290-295),
without the version, the data set pointer being a parameter of the model. `id` is the heap block of the struct. -/
structure SearchObj where
  id : Nat
  len : Nat
  search : Option Arr

/-- `iscc_imp_init_max_dist_object` (src/dist_search_imp.c:174-194) and `iscc_imp_init_nn_search_object` (src/dist_search_imp.c:320-340). -/
def searchInit (len : Nat) (search : Option Arr) : M (Option SearchObj) := do
  match ← alloc (Buf.raw 1 : Buf Unit) with
  | none => pure none
  | some b => pure (some ⟨b.id, len, search⟩)

/-- `iscc_imp_close_max_dist_object` (src/dist_search_imp.c:275-283) and `iscc_imp_close_nn_search_object`
(src/dist_search_imp.c:471-479). -/
def searchClose (o : SearchObj) : M Bool := do
  freeId o.id
  pure true

/-- `iscc_imp_get_max_dist`, src/dist_search_imp.c:197-272. The C code repeats the loops for each combination of NULL arrays. -/
def maxDistK (ds : DataSet F) (len : Nat) (search : Option Arr) (lenQ : Nat) (queries : Option Arr) (outI : Buf Nat) (outD : Buf F) :
    Option (Buf Nat × Buf F) :=
  forLt 0 lenQ (outI, outD) fun q (outI, outD) => do
    let (outI, m) ← forLt 0 len (outI, (FloatOps.negOne : F)) fun s (outI, m) => do
      let i ← idxGet queries q
      let j ← idxGet search s
      let d ← sqDist ds i j
      if FloatOps.lt m d then do
        let outI ← outI.set q j
        pure (outI, d)
      else pure (outI, m)
    let outD ← outD.set q (FloatOps.sqrt m)
    pure (outI, outD)

/-! ### Nearest neighbour search -/

/-- `iscc_add_dist_to_list`, src/dist_search_imp.c:301-317: insert into the sorted list, starting at position `p`; `base` is the start
of the index list. -/
def addDist (add : F) (ix base : Nat) : Nat → Buf F → Buf Nat → Option (Buf F × Buf Nat)
  | 0, dl, il => do
    let dl ← dl.set 0 add
    let il ← il.set base ix
    pure (dl, il)
  | p + 1, dl, il => do
    let d ← dl.get p
    if FloatOps.lt add d then do
      let dl ← dl.set (p + 1) d
      let x ← il.get (base + p)
      let il ← il.set (base + (p + 1)) x
      addDist add ix base p dl il
    else do
      let dl ← dl.set (p + 1) add
      let il ← il.set (base + (p + 1)) ix
      pure (dl, il)

/-- The first loop over the search points with a radius, src/dist_search_imp.c:386-393 and 429-436: collect points within the radius until
there are `k`. Returns the next search position, the number found and the lists. -/
def fillRadius (ds : DataSet F) (len : Nat) (search : Option Arr) (query k : Nat) (rsq : F) (base : Nat) (dl : Buf F) (il : Buf Nat) :
    Option (Nat × Nat × Buf F × Buf Nat) := do
  match ← forLtB 0 len (dl, il, 0) (fun s (dl, il, found) => do
      if found = k then pure (Ctl.stop (s, found, dl, il))
      else do
        let j ← idxGet search s
        let d ← sqDist ds query j
        if FloatOps.lt rsq d then pure (Ctl.next (dl, il, found))
        else do
          let (dl, il) ← addDist d j base found dl il
          pure (Ctl.next (dl, il, found + 1))) with
  | .stop r => pure r
  | .next (dl, il, found) => pure (len, found, dl, il)

/-- The first loop without radius, src/dist_search_imp.c:394-400 and 437-443. -/
def fillFirst (ds : DataSet F) (search : Option Arr) (query k base : Nat) (dl : Buf F) (il : Buf Nat) : Option (Buf F × Buf Nat) :=
  forLt 0 k (dl, il) fun s (dl, il) => do
    let j ← idxGet search s
    let d ← sqDist ds query j
    addDist d j base s dl il

/-- The second loop, src/dist_search_imp.c:402-407 and 445-450: replace the last entry by closer points. -/
def fillRest (ds : DataSet F) (len : Nat) (search : Option Arr) (query k base s : Nat) (dl : Buf F) (il : Buf Nat) : Option (Buf F × Buf Nat) :=
  forLt s len (dl, il) fun s (dl, il) => do
    let j ← idxGet search s
    let d ← sqDist ds query j
    let last ← dl.get (k - 1)
    if FloatOps.le last d then pure (dl, il)
    else addDist d j base (k - 1) dl il

/-- One query, src/dist_search_imp.c:382-407. Returns the number found and the lists. -/
def nnQuery (ds : DataSet F) (len : Nat) (search : Option Arr) (query k : Nat) (rs : Bool) (rsq : F) (base : Nat) (dl : Buf F) (il : Buf Nat) :
    Option (Nat × Buf F × Buf Nat) := do
  if rs then do
    let (s, found, dl, il) ← fillRadius ds len search query k rsq base dl il
    let (dl, il) ← fillRest ds len search query k base s dl il
    pure (found, dl, il)
  else do
    let (dl, il) ← fillFirst ds search query k base dl il
    let (dl, il) ← fillRest ds len search query k base k dl il
    pure (k, dl, il)

/-- The array that answered queries are written to. -/
def outQBuf (queries : Option Arr) : OutQ → Buf Nat
  | .null => Buf.raw 0
  | .same => (queries.map Arr.buf).getD (Buf.raw 0)
  | .buf b => b

/-- The query at position `q`: when the output array is the query array, the current contents are read.
src/dist_search_imp.c:378-381. -/
def queryAt (queries : Option Arr) (out : OutQ) (cur : Buf Nat) (q : Nat) : Option Nat :=
  match out, queries with
  | .same, some _ => cur.get q
  | _, _ => idxGet queries q

/-- `iscc_imp_nearest_neighbor_search`, src/dist_search_imp.c:343-468, from line 374 on, with the scratch array `dl`. The two branches on
`search_indices == NULL` differ only in how a search point is read (`idxGet`). -/
def nnSearchK (ds : DataSet F) (len : Nat) (search : Option Arr) (lenQ : Nat) (queries : Option Arr) (k : Nat) (rs : Bool) (radius : F)
    (out : OutQ) (dl : Buf F) (nn : Buf Nat) : Option NNOut := do
  let rsq := FloatOps.mul radius radius
  let (numOk, oq, nn, _) ← forLt 0 lenQ (0, outQBuf queries out, nn, dl) fun q (numOk, oq, nn, dl) => do
    let query ← queryAt queries out oq q
    let (found, dl, nn) ← nnQuery ds len search query k rs rsq (numOk * k) dl nn
    if found = k then
      match out with
      | .null => pure (numOk + 1, oq, nn, dl)
      | _ => do
        let oq ← oq.set numOk query
        pure (numOk + 1, oq, nn, dl)
    else pure (numOk, oq, nn, dl)
  pure ⟨numOk, oq, nn⟩

/-- `iscc_imp_nearest_neighbor_search`, src/dist_search_imp.c:343-468. -/
def nnSearch (ds : DataSet F) (o : SearchObj) (lenQ : Nat) (queries : Option Arr) (k : Nat) (rs : Bool) (radius : F) (out : OutQ) (nn : Buf Nat) :
    M (Option NNOut) := do
  match ← alloc (Buf.raw k : Buf F) with
  | none => pure none
  | some dl => do
    let r ← useK (o.id :: dl.id :: arrIds o.search ++ arrIds queries) (nnSearchK ds o.len o.search lenQ queries k rs radius out dl.buf nn)
    freeId dl.id
    pure (some r)

/-- The built-in distance functions applied to a data set (a pointer that may be NULL). Models the defaults of `iscc_dist_functions`,
src/scclust_spi.c:33-44. -/
def builtinSpi (p : Option (DataSet F)) : Spi F :=
  let ds : DataSet F := p.getD ⟨0, 0, 0, none⟩
  { NN := SearchObj
    MD := SearchObj
    -- `iscc_imp_check_data_set`, src/dist_search_imp.c:63-69
    valid := p.any DataSet.isInitialized
    -- `iscc_imp_num_data_points`, src/dist_search_imp.c:72-78
    numPoints := ds.n
    distMatrix := fun len points out => do
      let o ← useK (arrIds points) (distMatrixK ds len points out)
      pure (some o)
    distRows := fun lenQ queries lenC cols out => do
      let o ← useK (arrIds queries ++ arrIds cols) (distRowsK ds lenQ queries lenC cols out)
      pure (some o)
    maxInit := searchInit
    maxDist := fun o lenQ queries outI outD => do
      let r ← useK (o.id :: arrIds o.search ++ arrIds queries) (maxDistK ds o.len o.search lenQ queries outI outD)
      pure (some r)
    maxClose := searchClose
    nnInit := searchInit
    nnSearch := nnSearch ds
    nnClose := searchClose }

end Scc
