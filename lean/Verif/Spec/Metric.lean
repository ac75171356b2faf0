/-
Specification vocabulary for distances: what it means for a back end to return distances and farthest points as documented (include/scclust_spi.h).
-/
import Verif.Spec.Spi
import Verif.Spec.Float

namespace Scc

variable {F : Type} [FloatOps F]

/-- The functions of the back end that return distances work as documented (include/scclust_spi.h:53-84) on a data set of `n` points with distance function `dist`: calls leave
everything but their own objects alone, and return distances or a farthest point. A back end may report failure when an allocation fails or, if `mayRefuse`, at any time. -/
structure MetricOk (spi : Spi F) (n : Nat) (dist : Nat → Nat → F) (mayRefuse : Prop) where
  /-- `isMD o set own ids`: the object `o` searches in `set`, owns the heap blocks `own` and refers to the blocks `ids` of the caller. -/
  isMD : spi.MD → List Nat → Multiset Nat → List Nat → Prop
  maxInit : ∀ (len : Nat) (arr : Option Arr) (L : List Nat) (w : World), ArrHolds arr L → L.length = len → 0 < len → L.Nodup → (∀ x ∈ L, x < n) →
    (∀ i ∈ arrIds arr, i ∈ w.live) →
    WpM (spi.maxInit len arr) w fun r w' => w'.fails = w.fails ∧ w'.err = w.err ∧
      match r with
      | none => w'.live = w.live ∧ (¬ w.NoFail ∨ mayRefuse)
      | some o => ∃ own, isMD o L own (arrIds arr) ∧ w'.live = own + w.live
  maxDist : ∀ (o : spi.MD) (set : List Nat) (own : Multiset Nat) (ids : List Nat) (lenQ : Nat) (queries : Option Arr) (Q : List Nat) (outI : Buf Nat) (outD : Buf F) (w : World),
    isMD o set own ids → own ≤ w.live → (∀ i ∈ ids, i ∈ w.live) → ArrHolds queries Q → Q.length = lenQ → 0 < lenQ → (∀ q ∈ Q, q < n) →
    (∀ i ∈ arrIds queries, i ∈ w.live) → lenQ ≤ outI.len → lenQ ≤ outD.len →
    WpM (spi.maxDist o lenQ queries outI outD) w fun r w' => w'.fails = w.fails ∧ w'.err = w.err ∧ w'.live = w.live ∧
      match r with
      | none => ¬ w.NoFail ∨ mayRefuse
      | some out => out.1.len = outI.len ∧ out.2.len = outD.len ∧
          ∀ (i q : Nat), Q[i]? = some q → ∃ x ∈ set, out.1.get i = some x ∧ out.2.get i = some (dist q x) ∧ ∀ y ∈ set, FloatOps.le (dist q y) (dist q x) = true
  maxClose : ∀ (o : spi.MD) (set : List Nat) (own : Multiset Nat) (ids : List Nat) (w : World) (L : Multiset Nat), isMD o set own ids → w.live = own + L →
    WpM (spi.maxClose o) w fun b w' => w'.fails = w.fails ∧ w'.err = w.err ∧ w'.live = L ∧ (b = false → ¬ w.NoFail ∨ mayRefuse)
  distRows : ∀ (lenQ : Nat) (queries : Option Arr) (Q : List Nat) (lenC : Nat) (cols : Option Arr) (C : List Nat) (out : Buf F) (w : World),
    ArrHolds queries Q → Q.length = lenQ → ArrHolds cols C → C.length = lenC → (∀ q ∈ Q, q < n) → (∀ c ∈ C, c < n) → 0 < lenQ → 0 < lenC →
    (∀ i ∈ arrIds queries, i ∈ w.live) → (∀ i ∈ arrIds cols, i ∈ w.live) → lenQ * lenC ≤ out.len →
    WpM (spi.distRows lenQ queries lenC cols out) w fun r w' => w'.fails = w.fails ∧ w'.err = w.err ∧ w'.live = w.live ∧
      match r with
      | none => ¬ w.NoFail ∨ mayRefuse
      | some out' => out'.len = out.len ∧
          ∀ (i j q c : Nat), Q[i]? = some q → C[j]? = some c → out'.get (i * lenC + j) = some (dist q c)
  distMatrix : ∀ (len : Nat) (points : Option Arr) (L : List Nat) (out : Buf F) (w : World), ArrHolds points L → L.length = len → (∀ x ∈ L, x < n) → 1 < len →
    (∀ i ∈ arrIds points, i ∈ w.live) → (upperPairs L).length ≤ out.len →
    WpM (spi.distMatrix len points out) w fun r w' => w'.fails = w.fails ∧ w'.err = w.err ∧ w'.live = w.live ∧
      match r with
      | none => ¬ w.NoFail ∨ mayRefuse
      | some out' => out'.len = out.len ∧ ∀ (i : Nat) (p : Nat × Nat), (upperPairs L)[i]? = some p → out'.get i = some (dist p.1 p.2)
  numPoints : spi.numPoints = n

/-- What the distances between the points of a data set satisfy when there are no NaNs: the order laws, distances are greater than -1, and no point is closer to a point than
the point itself. -/
structure DistLaws (n : Nat) (dist : Nat → Nat → F) : Prop where
  order : FloatLaws F
  num : ∀ p q, p < n → q < n → IsNum (dist p q)
  pos : ∀ p q, p < n → q < n → FloatOps.lt (FloatOps.negOne : F) (dist p q) = true
  self : ∀ p q, p < n → q < n → FloatOps.le (dist p p) (dist p q) = true

/-- The same for the data set of the built-in search, whose farthest points are found by squared distance: all coordinates are there, squared distances are numbers and not
negative, no point is closer to a point than the point itself, and taking roots keeps the order. -/
structure DataSet.Metric (ds : DataSet F) : Prop where
  complete : ds.Complete
  order : FloatLaws F
  sqnum : ∀ p q, p < ds.n → q < ds.n → IsNum (ds.sqd p q) ∧ FloatOps.lt (FloatOps.negOne : F) (ds.sqd p q) = true
  self : ∀ p q, p < ds.n → q < ds.n → FloatOps.le (ds.sqd p p) (ds.sqd p q) = true
  root : ∀ p q r, p < ds.n → q < ds.n → r < ds.n → FloatOps.le (ds.sqd p q) (ds.sqd p r) = true → FloatOps.le (ds.dist p q) (ds.dist p r) = true
  pos : ∀ p q, p < ds.n → q < ds.n → FloatOps.lt (FloatOps.negOne : F) (ds.dist p q) = true

end Scc
