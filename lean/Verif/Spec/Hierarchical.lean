/-
Specification vocabulary for `scc_hierarchical_clustering`.
-/
import Verif.Spec.Metric
import Verif.Spec.Clustering
import Verif.Model.Hierarchical

namespace Scc

variable {F : Type} [FloatOps F]

/-- The C library works: on lists for which the comparison is consistent, the result of sorting is a sorted rearrangement; and the logarithm (base two) of a 64-bit number is
at most 64. -/
structure HiEnv.Ok (hi : HiEnv F) : Prop where
  sorts : ∀ l, Sortable l → (hi.qsort l).Perm l ∧ (hi.qsort l).Pairwise fun a b => FloatOps.lt b.2 a.2 = false
  log : ∀ c n, hi.logCap c n ≤ 64 * c

/-- No point of `O` has so many points of `O` at no greater distance than itself (for a metric: copies of the point) that they would make up two clusters. -/
def Spread (S : Nat) (dist : Nat → Nat → F) (O : List Nat) : Prop := ∀ c ∈ O, (O.filter fun x => FloatOps.le (dist c x) (dist c c)).length < 2 * S

/-- The number of clusters may exceed the largest label, or the stack of clusters the address space. -/
def HiTooBig (cfg : Cfg) (n k : Nat) : Prop := cfg.clabelMax < n ∨ cfg.sizeMax < 2 * (2 * n + k) + 1000

/-- The first cluster is small, or another one has at least as many members. (The code does not count the members of the first cluster when it looks for the largest one.) -/
def FirstFits (labels : Buf Int) (n k S : Nat) : Prop := (members labels n 0).length < 2 * S ∨ ∃ c, 0 < c ∧ c < k ∧ (members labels n 0).length ≤ (members labels n c).length

/-- The preconditions of a call of `scc_hierarchical_clustering` for the clustering object `ob`: the object and its label array are live, the label array is large enough, sizes are
within the limits of the machine's integer types, and the labels of a clustering that is refined are valid. -/
structure HiCallOk (cfg : Cfg) (S : Nat) (ob : ClObj) (w : World) : Prop where
  config : cfg.Valid
  live : {ob.id} + ptrOwn ob.cl.label ≤ w.live
  room : ∀ lb, ob.cl.label = some lb → ob.cl.n ≤ lb.buf.len
  twice : 2 * S < 2 ^ 32
  points : 2 * ob.cl.n ≤ cfg.sizeMax
  clusters : ob.cl.numClusters + 1000 < 2 ^ 64
  labels : ob.cl.numClusters ≠ 0 → ∀ lb, ob.cl.label = some lb → ValidLabels cfg lb.buf ob.cl.n ob.cl.numClusters ∧ FirstFits lb.buf ob.cl.n ob.cl.numClusters S

/-- Why a call is rejected before anything is done, and the error code that is returned. -/
def HiRejects (cfg : Cfg) (valid : Bool) (numPoints S : Nat) (cl : Clustering) (e : ErrorCode) : Prop :=
  e = .invalidInput ∧ (cl.isInitialized cfg = false ∨ valid = false ∨ numPoints ≠ cl.n ∨ S < 2) ∨
  e = .noSolution ∧ cl.isInitialized cfg = true ∧ valid = true ∧ numPoints = cl.n ∧ 2 ≤ S ∧ cl.n < S

/-- The call is not rejected. -/
structure HiAccepts (cfg : Cfg) (valid : Bool) (numPoints S : Nat) (cl : Clustering) : Prop where
  initialized : cl.isInitialized cfg = true
  valid : valid = true
  points : numPoints = cl.n
  size_two : 2 ≤ S
  size_le : S ≤ cl.n

/-- The clusters that a call starts with are well spread: all points if the clustering is empty, otherwise the members of each cluster. -/
def WellSpread (S : Nat) (dist : Nat → Nat → F) (cl : Clustering) : Prop :=
  (cl.numClusters = 0 → Spread S dist (List.range cl.n)) ∧ ∀ c, c < cl.numClusters → Spread S dist (members (ptrBuf cl.label) cl.n c)

/-- The `n` points are divided into `k` clusters with at least `S` and fewer than `2 * S` members. -/
def HiPartition (S n k : Nat) (new : Buf Int) : Prop :=
  (∀ v, v < n → ∃ c, c < k ∧ new.get v = some (c : Int)) ∧ ∀ c, c < k → S ≤ (members new n c).length ∧ (members new n c).length < 2 * S

/-- The labels `new` of `k'` clusters refine the labels `old` of `k` clusters: the same points are unassigned, points with the same new label had the same old label, and a
(non-empty) cluster with fewer than `2 * S` members is kept. New clusters are not empty, have fewer than `2 * S` members and have at least `S` members unless they are old ones. -/
structure HiRefines (cfg : Cfg) (S n k : Nat) (old : Buf Int) (k' : Nat) (new : Buf Int) : Prop where
  valid : ValidLabels cfg new n k'
  unassigned : ∀ v, v < n → (Unassigned cfg new v ↔ Unassigned cfg old v)
  finer : ∀ u v c', u < n → v < n → c' < k' → new.get u = some (c' : Int) → new.get v = some (c' : Int) → ∃ c, c < k ∧ old.get u = some (c : Int) ∧ old.get v = some (c : Int)
  kept : ∀ c, c < k → members old n c ≠ [] → (members old n c).length < 2 * S → ∃ c', c' < k' ∧ members new n c' = members old n c
  sizes : ∀ c', c' < k' → 0 < (members new n c').length ∧ (members new n c').length < 2 * S ∧ (S ≤ (members new n c').length ∨ ∃ c, c < k ∧ members new n c' = members old n c)

end Scc
