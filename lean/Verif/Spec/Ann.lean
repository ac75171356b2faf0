/-
Specification vocabulary for the ANN back end: what is assumed of the ANN library, and the wrapper without its leaks.
-/
import Verif.Model.Ann
import Verif.Spec.Spi

namespace Scc

variable {F : Type} [FloatOps F]

/-- `l` are the points of `set` at the positions `idx`. -/
def PointsAt (set idx l : List Nat) : Prop := idx.map (set[·]?) = l.map some

/-- The ANN library works as documented for the data set: its answers are `k` distinct points of the tree that satisfy the criterion `A`, and a search with radius finds fewer than `k` points only if "no answer"
satisfies the criterion. For exact search (`SCC_ANN_EPS` is zero) the criterion is that these are nearest points. -/
structure AnnOk (lib : AnnLib F) (ds : DataSet F) (A : Criterion F) : Prop where
  kSearch : ∀ (set : List Nat) (q k : Nat), set.Nodup → (∀ x ∈ set, x < ds.n) → q < ds.n → 0 < k → k ≤ set.length →
    ∃ l, PointsAt set (lib.kSearch ds set q k) l ∧ l.length = k ∧ l.Nodup ∧ A set k none q (some l)
  frSearch : ∀ (set : List Nat) (q k : Nat) (r : F), set.Nodup → (∀ x ∈ set, x < ds.n) → q < ds.n → 0 < k → k ≤ set.length →
    (lib.frSearch ds set q (FloatOps.mul r r) k).2.length = k ∧
    if k ≤ (lib.frSearch ds set q (FloatOps.mul r r) k).1 then ∃ l, PointsAt set (lib.frSearch ds set q (FloatOps.mul r r) k).2 l ∧ l.Nodup ∧ A set k (some r) q (some l)
    else A set k (some r) q none

/-- `annInit` without the leak. -/
def annInitTidy (ds : DataSet F) (len : Nat) (search : Option Arr) : M (Option AnnObj) := do
  if intMax < len then pure none
  else
    match ← alloc (Buf.raw len : Buf Nat) with
    | none => pure none
    | some pts =>
      match ← alloc (Buf.raw 1 : Buf Unit) with
      | none => do
        freeId pts.id
        pure none
      | some ob => do
        let p ← useK (pts.id :: arrIds search) (annPoints len search pts.buf)
        match ← alloc (Buf.raw 1 : Buf Unit) with
        | none => do
          freeId pts.id
          freeId ob.id
          pure none
        | some tree => do
          let set ← useK [pts.id, tree.id] (annTree ds len p)
          pure (some ⟨ob.id, pts.id, tree.id, len, search, set⟩)

/-- `annGeneral` without the leak. -/
def annGeneralTidy (lib : AnnLib F) (ds : DataSet F) (o : AnnObj) (lenQ : Nat) (queries : Option Arr) (k : Nat) (rs : Bool) (radius : F) (out : OutQ) (nn : Buf Nat) : M (Option NNOut) := do
  match ← alloc (Buf.raw k : Buf Nat) with
  | none => pure none
  | some idx =>
    match ← alloc (Buf.raw k : Buf F) with
    | none => do
      freeId idx.id
      pure none
    | some dist => do
      let r ← useK (idx.id :: dist.id :: o.ids queries) (annLoop lenQ queries k out nn (annStep lib ds o.set o.search k rs (FloatOps.mul radius radius)))
      freeId idx.id
      freeId dist.id
      pure (some r)

/-- `annSearch` without the leaks. -/
def annSearchTidy (direct : Bool) (lib : AnnLib F) (ds : DataSet F) (o : AnnObj) (lenQ : Nat) (queries : Option Arr) (k : Nat) (rs : Bool) (radius : F) (out : OutQ) (nn : Buf Nat) :
    M (Option NNOut) := do
  if intMax < k then pure none
  else if direct && o.search.isNone then do
    match ← alloc (Buf.raw k : Buf F) with
    | none => pure none
    | some dist => do
      let r ← useK (dist.id :: o.ids queries) (annLoop lenQ queries k out nn (annDirectStep lib ds o.set k rs (FloatOps.mul radius radius)))
      freeId dist.id
      if rs then pure (some r)
      else annGeneralTidy lib ds o lenQ (carryQueries queries out r.outQ) k rs radius (carryOut out r.outQ) r.nn
  else annGeneralTidy lib ds o lenQ queries k rs radius out nn

/-- The ANN back end without the leaks. -/
def annTidySpi (direct : Bool) (lib : AnnLib F) (p : Option (DataSet F)) : Spi F :=
  let ds : DataSet F := p.getD ⟨0, 0, 0, none⟩
  { NN := AnnObj
    MD := SearchObj
    valid := (builtinSpi p).valid
    numPoints := (builtinSpi p).numPoints
    distMatrix := (builtinSpi p).distMatrix
    distRows := (builtinSpi p).distRows
    maxInit := searchInit
    maxDist := (builtinSpi p).maxDist
    maxClose := searchClose
    nnInit := annInitTidy ds
    nnSearch := annSearchTidy direct lib ds
    nnClose := annClose }

end Scc
