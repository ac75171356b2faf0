/-
Floating point operations, index arrays, and the distance search interface (include/scclust_spi.h, src/dist_search.h).
-/
import Verif.Model.FindSeeds

namespace Scc

/-- The operations on `double` that the library uses. No laws are assumed here: theorems that need laws (for instance that comparison is a
total order, which fails for NaN) state them as hypotheses. Comparisons are Boolean; `a > b` is `lt b a` and `a >= b` is `le b a`. -/
class FloatOps (F : Type) where
  zero : F
  negOne : F
  /-- `DBL_MAX` -/
  dblMax : F
  add : F → F → F
  sub : F → F → F
  mul : F → F → F
  div : F → F → F
  sqrt : F → F
  /-- conversion from an unsigned integer -/
  ofNat : Nat → F
  lt : F → F → Bool
  le : F → F → Bool

/-- A (non-NULL) pointer to an array of point indices: the heap blocks that must be live for it to be used (none for arrays owned by the
user) and the cells from the pointer on. -/
structure Arr where
  ids : List Nat
  buf : Buf Nat

/-- Blocks behind a possibly NULL array. -/
def arrIds : Option Arr → List Nat
  | none => []
  | some a => a.ids

/-- The cells from index `o` on (pointer arithmetic `p + o`). -/
def Buf.drop {α : Type} (b : Buf α) (o : Nat) : Buf α := ⟨b.len - o, fun i => b.cell (o + i)⟩

/-- Entry `i` of an index array; a NULL array stands for `0, 1, 2, ...`. -/
def idxGet (a : Option Arr) (i : Nat) : Option Nat :=
  match a with
  | none => some i
  | some a => a.buf.get i

/-- Where a nearest neighbour search writes the queries it answered (`out_query_indices`): nowhere (NULL), over the query array, or to another
array. -/
inductive OutQ
  | null
  | same
  | buf (b : Buf Nat)

/-- What a successful search produces: the number of answered queries, the array of answered queries (meaningless when `out_query_indices` is
NULL) and the array of neighbours. -/
structure NNOut where
  numOk : Nat
  outQ : Buf Nat
  nn : Buf Nat

/-- The distance search functions applied to one data set. Models `iscc_dist_functions_struct` and the wrappers in src/dist_search.h; the
function types are those of include/scclust_spi.h:53-106. Output arrays are passed in and handed back with new contents; `none` is the return
value `false` (the contents of output arrays are then unknown and the callers do not use them). Search objects keep the pointer to the array of
search indices; the model keeps its contents and its blocks. -/
structure Spi (F : Type) where
  /-- type of nearest neighbour search objects -/
  NN : Type
  /-- type of max dist objects -/
  MD : Type
  /-- `check_data_set` -/
  valid : Bool
  /-- `num_data_points` -/
  numPoints : Nat
  /-- `get_dist_matrix(len_point_indices, point_indices, output_dists)` -/
  distMatrix : Nat → Option Arr → Buf F → M (Option (Buf F))
  /-- `get_dist_rows(len_query_indices, query_indices, len_column_indices, column_indices, output_dists)` -/
  distRows : Nat → Option Arr → Nat → Option Arr → Buf F → M (Option (Buf F))
  /-- `init_max_dist_object(len_search_indices, search_indices)` -/
  maxInit : Nat → Option Arr → M (Option MD)
  /-- `get_max_dist(object, len_query_indices, query_indices, out_max_indices, out_max_dists)` -/
  maxDist : MD → Nat → Option Arr → Buf Nat → Buf F → M (Option (Buf Nat × Buf F))
  /-- `close_max_dist_object` -/
  maxClose : MD → M Bool
  /-- `init_nn_search_object(len_search_indices, search_indices)` -/
  nnInit : Nat → Option Arr → M (Option NN)
  /-- `nearest_neighbor_search(object, len_query_indices, query_indices, k, radius_search, radius, out_query_indices, out_nn_indices)` -/
  nnSearch : NN → Nat → Option Arr → Nat → Bool → F → OutQ → Buf Nat → M (Option NNOut)
  /-- `close_nn_search_object` -/
  nnClose : NN → M Bool

/-- Using blocks that are not live is undefined behaviour. -/
def touch (ids : List Nat) : M Unit := useK ids (some ())

end Scc
