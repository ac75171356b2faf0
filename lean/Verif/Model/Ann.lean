/-
Model of examples/ann/ann_wrapper.cpp, the nearest neighbour back end that uses the ANN library.
-/
import Verif.Model.DistSearch

namespace Scc

variable {F : Type} [FloatOps F]

/-- The two searches of the ANN library that the wrapper uses, as functions of the data, the points in the tree, the query and `k`. `kSearch` is `annkSearch`: positions of `k` points of the tree. `frSearch` is
`annkFRSearch` with the squared radius: the number of points of the tree within the radius, and `k` positions (`ANN_NULL_IDX` where there are too few points is some number here). The library itself is not
modelled: these are any functions. -/
structure AnnLib (F : Type) where
  kSearch : DataSet F → List Nat → Nat → Nat → List Nat
  frSearch : DataSet F → List Nat → Nat → F → Nat → Nat × List Nat

/-- `INT_MAX` -/
def intMax : Nat := 2 ^ 31 - 1

/-- `iscc_NNSearchObject`, examples/ann/ann_wrapper.cpp:81-88: the blocks of the struct, of `search_points` and of the tree, and the points in the tree. The memory that the tree uses is one block. -/
structure AnnObj where
  id : Nat
  points : Nat
  tree : Nat
  len : Nat
  search : Option Arr
  set : List Nat

/-- Reading the coordinates of a point. -/
def readRow (ds : DataSet F) (j : Nat) : Option Unit :=
  forNe 0 ds.dims () fun t _ => do
    let _ ← ds.buf.get (j * ds.dims + t)
    pure ()

/-- The pointers to the search points, examples/ann/ann_wrapper.cpp:130-141. A pointer to a row of the matrix is the number of the row. -/
def annPoints (len : Nat) (search : Option Arr) (points : Buf Nat) : Option (Buf Nat) :=
  forLt 0 len points fun i points => do
    let j ← idxGet search i
    points.set i j

/-- Building the tree reads all points. -/
def annTree (ds : DataSet F) (len : Nat) (points : Buf Nat) : Option (List Nat) := do
  let l ← points.read len
  let _ ← l.foldlM (fun (_ : Unit) j => readRow ds j) ()
  pure l

/-- `iscc_ann_init_nn_search_object`, examples/ann/ann_wrapper.cpp:108-164. If the second `new` throws, `search_points` is not freed (lines 123-128). The counter of open objects is modelled separately. -/
def annInit (ds : DataSet F) (len : Nat) (search : Option Arr) : M (Option AnnObj) := do
  if intMax < len then pure none
  else
    match ← alloc (Buf.raw len : Buf Nat) with
    | none => pure none
    | some pts =>
      match ← alloc (Buf.raw 1 : Buf Unit) with
      | none => pure none
      | some ob => do
        let p ← useK (pts.id :: arrIds search) (annPoints len search pts.buf)
        match ← alloc (Buf.raw 1 : Buf Unit) with
        | none => do
          freeId pts.id
          freeId ob.id
          pure none
        | some tree => do
          let set ← useK [pts.id, tree.id] (annTree ds len p)
          pure (some ⟨ob.id, pts.id, tree.id, len, search, set⟩)

/-- The answer to a query: the number found and the positions. Without radius the code does not look at the number found. -/
def annAnswer (lib : AnnLib F) (ds : DataSet F) (set : List Nat) (k : Nat) (rs : Bool) (rsq : F) (query : Nat) : Nat × List Nat :=
  if rs then lib.frSearch ds set query rsq k else (k, lib.kSearch ds set query k)

/-- The loops over the queries, examples/ann/ann_wrapper.cpp:219-262 and 286-353. `step query base` answers a query and writes to `out_nn_indices` from `base` on. -/
def annLoop (lenQ : Nat) (queries : Option Arr) (k : Nat) (out : OutQ) (nn : Buf Nat) (step : Nat → Nat → Buf Nat → Option (Bool × Buf Nat)) : Option NNOut := do
  let (numOk, oq, nn) ← forLt 0 lenQ (0, outQBuf queries out, nn) fun q (numOk, oq, nn) => do
    let query ← queryAt queries out oq q
    let (ok, nn) ← step query (numOk * k) nn
    if ok then
      match out with
      | .null => pure (numOk + 1, oq, nn)
      | _ => do
        let oq ← oq.set numOk query
        pure (numOk + 1, oq, nn)
    else pure (numOk, oq, nn)
  pure ⟨numOk, oq, nn⟩

/-- One query when ANN writes to `out_nn_indices` directly, examples/ann/ann_wrapper.cpp:221-237 and 242-262. -/
def annDirectStep (lib : AnnLib F) (ds : DataSet F) (set : List Nat) (k : Nat) (rs : Bool) (rsq : F) (query base : Nat) (nn : Buf Nat) : Option (Bool × Buf Nat) := do
  readRow ds query
  let r := annAnswer lib ds set k rs rsq query
  let nn ← forLt 0 k nn fun j nn => do
    let p ← r.2[j]?
    nn.set (base + j) p
  pure (decide (k ≤ r.1), nn)

/-- One query with scratch arrays, examples/ann/ann_wrapper.cpp:289-315 and 321-352: the positions are translated to points (lines 300-310 and 336-346). -/
def annStep (lib : AnnLib F) (ds : DataSet F) (set : List Nat) (search : Option Arr) (k : Nat) (rs : Bool) (rsq : F) (query base : Nat) (nn : Buf Nat) : Option (Bool × Buf Nat) := do
  readRow ds query
  let r := annAnswer lib ds set k rs rsq query
  if k ≤ r.1 then do
    let nn ← forLt 0 k nn fun j nn => do
      let p ← r.2[j]?
      let x ← idxGet search p
      nn.set (base + j) x
    pure (true, nn)
  else pure (false, nn)

/-- The blocks that a search uses. -/
def AnnObj.ids (o : AnnObj) (queries : Option Arr) : List Nat := o.id :: o.points :: o.tree :: arrIds o.search ++ arrIds queries

/-- `iscc_ann_nearest_neighbor_search` from line 275 on, examples/ann/ann_wrapper.cpp:275-361. If the second `new` throws, `idx_scratch` is not freed (lines 277-282). -/
def annGeneral (lib : AnnLib F) (ds : DataSet F) (o : AnnObj) (lenQ : Nat) (queries : Option Arr) (k : Nat) (rs : Bool) (radius : F) (out : OutQ) (nn : Buf Nat) : M (Option NNOut) := do
  match ← alloc (Buf.raw k : Buf Nat) with
  | none => pure none
  | some idx =>
    match ← alloc (Buf.raw k : Buf F) with
    | none => pure none
    | some dist => do
      let r ← useK (idx.id :: dist.id :: o.ids queries) (annLoop lenQ queries k out nn (annStep lib ds o.set o.search k rs (FloatOps.mul radius radius)))
      freeId idx.id
      freeId dist.id
      pure (some r)

/-- The query array after the output array `out` was overwritten by `oq`. -/
def carryQueries (queries : Option Arr) (out : OutQ) (oq : Buf Nat) : Option Arr :=
  match out with
  | .same => queries.map fun a => { a with buf := oq }
  | _ => queries

/-- The output array after it was overwritten by `oq`. -/
def carryOut (out : OutQ) (oq : Buf Nat) : OutQ :=
  match out with
  | .buf _ => .buf oq
  | out => out

/-- `iscc_ann_nearest_neighbor_search`, examples/ann/ann_wrapper.cpp:167-361. `direct` says whether `scc_PointIndex` is `int` (`SCC_M_POINTINDEX_TYPE_int`). In the branch for sequential indices,
lines 204-270, braces are misplaced: freeing the scratch array and returning (lines 264-268) belong to the `else` of line 238. Without radius the code goes on to the general case: it searches again, and
the first scratch array is not freed. -/
def annSearch (direct : Bool) (lib : AnnLib F) (ds : DataSet F) (o : AnnObj) (lenQ : Nat) (queries : Option Arr) (k : Nat) (rs : Bool) (radius : F) (out : OutQ) (nn : Buf Nat) : M (Option NNOut) := do
  if intMax < k then pure none
  else if direct && o.search.isNone then do
    match ← alloc (Buf.raw k : Buf F) with
    | none => pure none
    | some dist => do
      let r ← useK (dist.id :: o.ids queries) (annLoop lenQ queries k out nn (annDirectStep lib ds o.set k rs (FloatOps.mul radius radius)))
      if rs then do
        freeId dist.id
        pure (some r)
      else annGeneral lib ds o lenQ (carryQueries queries out r.outQ) k rs radius (carryOut out r.outQ) r.nn
  else annGeneral lib ds o lenQ queries k rs radius out nn

/-- `iscc_ann_close_nn_search_object`, examples/ann/ann_wrapper.cpp:364-387, on an object; see `annCloseCount` for the counter. -/
def annClose (o : AnnObj) : M Bool := do
  freeId o.tree
  freeId o.points
  freeId o.id
  pure true

/-- The distance functions after `scc_set_ann_dist_search`, examples/ann/ann_wrapper.cpp:95-101: only the nearest neighbour search is replaced. -/
def annSpi (direct : Bool) (lib : AnnLib F) (p : Option (DataSet F)) : Spi F :=
  let ds : DataSet F := p.getD ⟨0, 0, 0, none⟩
  { NN := AnnObj
    MD := SearchObj
    valid := (builtinSpi p).valid
    numPoints := (builtinSpi p).numPoints
    distMatrix := (builtinSpi p).distMatrix
    distRows := (builtinSpi p).distRows
    maxInit := searchInit
    maxDist := (builtinSpi p).maxDist
    maxClose := searchClose
    nnInit := annInit ds
    nnSearch := annSearch direct lib ds
    nnClose := annClose }

/-! ### The counter of open search objects -/

/-- `iscc_ann_open_search_objects` after a successful call of `iscc_ann_init_nn_search_object`, examples/ann/ann_wrapper.cpp:77 and 162. -/
def annInitCount (c : Int) : Int := c + 1

/-- The return value of `iscc_ann_close_nn_search_object`, and the counter, examples/ann/ann_wrapper.cpp:376-386. -/
def annCloseCount (c : Int) : Bool × Int := if c ≤ 0 then (false, c) else (true, c - 1)

end Scc
