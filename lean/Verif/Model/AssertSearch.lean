/-
The built-in distance functions (src/dist_search_imp.c) with the assertions of a build with `--enable-assert`. The assertions that pointers are not NULL and that the version
fields of search objects are right have no counterpart: the model has no such pointers and fields.
-/
import Verif.Model.DistSearch
import Verif.Model.AssertNng

namespace Scc

variable {F : Type} [FloatOps F]

/-- `iscc_get_sq_dist`, src/dist_search_imp.c:37-56, assertions in lines 41 and 42. -/
def sqDistDbg (ds : DataSet F) (i j : Nat) : Option F := do
  asrt (i < ds.n)
  asrt (j < ds.n)
  sqDist ds i j

/-- `iscc_imp_get_dist_matrix`, src/dist_search_imp.c:81-107, assertions in lines 86 and 87. -/
def distMatrixKDbg (ds : DataSet F) (len : Nat) (points : Option Arr) (out : Buf F) : Option (Buf F) := do
  asrt (ds.isInitialized = true)
  asrt (1 < len)
  let (out, _) ← forLt 0 len (out, 0) fun p1 (out, w) =>
    forLt (p1 + 1) len (out, w) fun p2 (out, w) => do
      let i ← idxGet points p1
      let j ← idxGet points p2
      let d ← sqDistDbg ds i j
      let out ← out.set w (FloatOps.sqrt d)
      pure (out, w + 1)
  pure out

/-- `iscc_imp_get_dist_rows`, src/dist_search_imp.c:110-156, assertions in lines 117-119. -/
def distRowsKDbg (ds : DataSet F) (lenQ : Nat) (queries : Option Arr) (lenC : Nat) (cols : Option Arr) (out : Buf F) : Option (Buf F) := do
  asrt (ds.isInitialized = true)
  asrt (0 < lenQ)
  asrt (0 < lenC)
  let (out, _) ← forLt 0 lenQ (out, 0) fun q (out, w) =>
    forLt 0 lenC (out, w) fun c (out, w) => do
      let i ← idxGet queries q
      let j ← idxGet cols c
      let d ← sqDistDbg ds i j
      let out ← out.set w (FloatOps.sqrt d)
      pure (out, w + 1)
  pure out

/-- `iscc_imp_init_max_dist_object` (src/dist_search_imp.c:174-194, assertions in lines 179 and 180) and `iscc_imp_init_nn_search_object`
(src/dist_search_imp.c:320-340, assertions in lines 325 and 326). -/
def searchInitDbg (ds : DataSet F) (len : Nat) (search : Option Arr) : M (Option SearchObj) := do
  asrtM (ds.isInitialized = true)
  asrtM (0 < len)
  searchInit len search

/-- `iscc_imp_get_max_dist`, src/dist_search_imp.c:197-272, assertions in lines 209-211. -/
def maxDistKDbg (ds : DataSet F) (len : Nat) (search : Option Arr) (lenQ : Nat) (queries : Option Arr) (outI : Buf Nat) (outD : Buf F) :
    Option (Buf Nat × Buf F) := do
  asrt (ds.isInitialized = true)
  asrt (0 < len)
  asrt (0 < lenQ)
  forLt 0 lenQ (outI, outD) fun q (outI, outD) => do
    let (outI, m) ← forLt 0 len (outI, (FloatOps.negOne : F)) fun s (outI, m) => do
      let i ← idxGet queries q
      let j ← idxGet search s
      let d ← sqDistDbg ds i j
      if FloatOps.lt m d then do
        let outI ← outI.set q j
        pure (outI, d)
      else pure (outI, m)
    let outD ← outD.set q (FloatOps.sqrt m)
    pure (outI, outD)

/-- The first loop over the search points with a radius, src/dist_search_imp.c:386-393 and 429-436. -/
def fillRadiusDbg (ds : DataSet F) (len : Nat) (search : Option Arr) (query k : Nat) (rsq : F) (base : Nat) (dl : Buf F) (il : Buf Nat) :
    Option (Nat × Nat × Buf F × Buf Nat) := do
  match ← forLtB 0 len (dl, il, 0) (fun s (dl, il, found) => do
      if found = k then pure (Ctl.stop (s, found, dl, il))
      else do
        let j ← idxGet search s
        let d ← sqDistDbg ds query j
        if FloatOps.lt rsq d then pure (Ctl.next (dl, il, found))
        else do
          let (dl, il) ← addDist d j base found dl il
          pure (Ctl.next (dl, il, found + 1))) with
  | .stop r => pure r
  | .next (dl, il, found) => pure (len, found, dl, il)

/-- The first loop without radius, src/dist_search_imp.c:394-400 and 437-443. -/
def fillFirstDbg (ds : DataSet F) (search : Option Arr) (query k base : Nat) (dl : Buf F) (il : Buf Nat) : Option (Buf F × Buf Nat) :=
  forLt 0 k (dl, il) fun s (dl, il) => do
    let j ← idxGet search s
    let d ← sqDistDbg ds query j
    addDist d j base s dl il

/-- The second loop, src/dist_search_imp.c:402-407 and 445-450, assertions in lines 403 and 446. -/
def fillRestDbg (ds : DataSet F) (len : Nat) (search : Option Arr) (query k base found s : Nat) (dl : Buf F) (il : Buf Nat) :
    Option (Buf F × Buf Nat) :=
  forLt s len (dl, il) fun s (dl, il) => do
    asrt (found = k)
    let j ← idxGet search s
    let d ← sqDistDbg ds query j
    let last ← dl.get (k - 1)
    if FloatOps.le last d then pure (dl, il)
    else addDist d j base (k - 1) dl il

/-- One query, src/dist_search_imp.c:382-407. -/
def nnQueryDbg (ds : DataSet F) (len : Nat) (search : Option Arr) (query k : Nat) (rs : Bool) (rsq : F) (base : Nat) (dl : Buf F) (il : Buf Nat) :
    Option (Nat × Buf F × Buf Nat) := do
  if rs then do
    let (s, found, dl, il) ← fillRadiusDbg ds len search query k rsq base dl il
    let (dl, il) ← fillRestDbg ds len search query k base found s dl il
    pure (found, dl, il)
  else do
    let (dl, il) ← fillFirstDbg ds search query k base dl il
    let (dl, il) ← fillRestDbg ds len search query k base k k dl il
    pure (k, dl, il)

/-- `iscc_imp_nearest_neighbor_search`, src/dist_search_imp.c:343-468, from line 374 on, assertions in lines 409 and 452. -/
def nnSearchKDbg (ds : DataSet F) (len : Nat) (search : Option Arr) (lenQ : Nat) (queries : Option Arr) (k : Nat) (rs : Bool) (radius : F)
    (out : OutQ) (dl : Buf F) (nn : Buf Nat) : Option NNOut := do
  let rsq := FloatOps.mul radius radius
  let (numOk, oq, nn, _) ← forLt 0 lenQ (0, outQBuf queries out, nn, dl) fun q (numOk, oq, nn, dl) => do
    let query ← queryAt queries out oq q
    let (found, dl, nn) ← nnQueryDbg ds len search query k rs rsq (numOk * k) dl nn
    asrt (found = k ∨ out.isNull = false)
    if found = k then
      match out with
      | .null => pure (numOk + 1, oq, nn, dl)
      | _ => do
        let oq ← oq.set numOk query
        pure (numOk + 1, oq, nn, dl)
    else pure (numOk, oq, nn, dl)
  pure ⟨numOk, oq, nn⟩

/-- `iscc_imp_nearest_neighbor_search`, src/dist_search_imp.c:343-468, assertions in lines 359-364. -/
def nnSearchDbg (ds : DataSet F) (o : SearchObj) (lenQ : Nat) (queries : Option Arr) (k : Nat) (rs : Bool) (radius : F) (out : OutQ) (nn : Buf Nat) :
    M (Option NNOut) := do
  asrtM (ds.isInitialized = true)
  asrtM (0 < o.len)
  asrtM (0 < lenQ)
  asrtM (0 < k)
  asrtM (k ≤ o.len)
  asrtRadius rs radius
  match ← alloc (Buf.raw k : Buf F) with
  | none => pure none
  | some dl => do
    let r ← useK (o.id :: dl.id :: arrIds o.search ++ arrIds queries) (nnSearchKDbg ds o.len o.search lenQ queries k rs radius out dl.buf nn)
    freeId dl.id
    pure (some r)

/-- The built-in distance functions with assertions, applied to a data set (a pointer that may be NULL). Models the defaults of
`iscc_dist_functions`, src/scclust_spi.c:33-44. `iscc_imp_num_data_points` asserts that the data set is valid (src/dist_search_imp.c:74); its result is a value of the model, so
that assertion has no counterpart here (every function of the library that calls it has called `iscc_check_data_set` before). -/
def builtinSpiDbg (p : Option (DataSet F)) : Spi F :=
  let ds : DataSet F := p.getD ⟨0, 0, 0, none⟩
  { NN := SearchObj
    MD := SearchObj
    valid := p.any DataSet.isInitialized
    numPoints := ds.n
    distMatrix := fun len points out => do
      let o ← useK (arrIds points) (distMatrixKDbg ds len points out)
      pure (some o)
    distRows := fun lenQ queries lenC cols out => do
      let o ← useK (arrIds queries ++ arrIds cols) (distRowsKDbg ds lenQ queries lenC cols out)
      pure (some o)
    maxInit := searchInitDbg ds
    maxDist := fun o lenQ queries outI outD => do
      let r ← useK (o.id :: arrIds o.search ++ arrIds queries) (maxDistKDbg ds o.len o.search lenQ queries outI outD)
      pure (some r)
    maxClose := searchClose
    nnInit := searchInitDbg ds
    nnSearch := nnSearchDbg ds
    nnClose := searchClose }

end Scc
