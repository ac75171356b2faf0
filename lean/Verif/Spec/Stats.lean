/-
Specification of the statistics that `scc_get_clustering_stats` is to report.
-/
import Verif.Model.Stats
import Verif.Spec.Clustering
import Verif.Spec.Metric

namespace Scc

variable {F : Type} [FloatOps F]

/-- The distances between the members of cluster `c`, each pair once. (The code goes through the members from the last to the first, which matters only for rounding.) -/
def clusterDists (dist : Nat → Nat → F) (b : Buf Int) (n c : Nat) : List F := (upperPairs (members b n c).reverse).map fun p => dist p.1 p.2

/-- The sum of the entries of a list, added from the left. -/
def sumOf : List F → F
  | [] => FloatOps.zero
  | x :: xs => xs.foldl FloatOps.add x

/-- A smallest entry of a list. -/
def leastOf : List F → F
  | [] => FloatOps.zero
  | x :: xs => xs.foldl (fun m d => if FloatOps.lt d m then d else m) x

/-- A largest entry of a list. -/
def greatestOf : List F → F
  | [] => FloatOps.zero
  | x :: xs => xs.foldl (fun m d => if FloatOps.lt m d then d else m) x

/-- The clusters with at least `s` members. -/
def clustersFrom (b : Buf Int) (n k s : Nat) : List Nat := (List.range k).filter fun c => decide (s ≤ (members b n c).length)

/-- Sum over a list of clusters, added from the left. -/
def clusterSum (cs : List Nat) (f : Nat → F) : F := cs.foldl (fun s c => FloatOps.add s (f c)) FloatOps.zero

/-- `s` are the statistics of the clustering of `n` points into `k` clusters with labels `b`. Clusters without members are not counted as populated; averages over clusters divide by the number of
populated clusters, and clusters with one member have no distances. -/
structure StatsAre (cfg : Cfg) (dist : Nat → Nat → F) (n k : Nat) (b : Buf Int) (s : Stats F) : Prop where
  points : s.numPoints = n
  clusters : s.numClusters = k
  /-- points with a cluster -/
  assigned : s.numAssigned = ((List.range n).filter fun v => decide (b.get v ≠ some cfg.na)).length
  populated : s.populated = (clustersFrom b n k 1).length
  minSize : (∀ c ∈ clustersFrom b n k 1, s.minSize ≤ (members b n c).length) ∧ (clustersFrom b n k 1 ≠ [] → ∃ c ∈ clustersFrom b n k 1, s.minSize = (members b n c).length)
  maxSize : (∀ c ∈ clustersFrom b n k 1, (members b n c).length ≤ s.maxSize) ∧ (clustersFrom b n k 1 ≠ [] → ∃ c ∈ clustersFrom b n k 1, s.maxSize = (members b n c).length)
  avgSize : clustersFrom b n k 1 ≠ [] → s.avgSize = FloatOps.div (FloatOps.ofNat s.numAssigned) (FloatOps.ofNat s.populated)
  sumDists : s.sumDists = clusterSum (clustersFrom b n k 2) fun c => sumOf (clusterDists dist b n c)
  avgMin : clustersFrom b n k 1 ≠ [] → s.avgMin = FloatOps.div (clusterSum (clustersFrom b n k 2) fun c => leastOf (clusterDists dist b n c)) (FloatOps.ofNat s.populated)
  avgMax : clustersFrom b n k 1 ≠ [] → s.avgMax = FloatOps.div (clusterSum (clustersFrom b n k 2) fun c => greatestOf (clusterDists dist b n c)) (FloatOps.ofNat s.populated)
  /-- average of the mean distances of the clusters, weighted by the sizes of the clusters -/
  avgWeighted : clustersFrom b n k 1 ≠ [] → s.avgWeighted = FloatOps.div (clusterSum (clustersFrom b n k 2) fun c =>
    FloatOps.div (FloatOps.mul (FloatOps.ofNat (members b n c).length) (sumOf (clusterDists dist b n c))) (FloatOps.ofNat (clusterDists dist b n c).length)) (FloatOps.ofNat s.numAssigned)
  /-- average of the mean distances of the clusters -/
  avgUnweighted : clustersFrom b n k 1 ≠ [] → s.avgUnweighted = FloatOps.div (clusterSum (clustersFrom b n k 2) fun c =>
    FloatOps.div (sumOf (clusterDists dist b n c)) (FloatOps.ofNat (clusterDists dist b n c).length)) (FloatOps.ofNat s.populated)

/-- The statistics if no point has a cluster: minima are the largest value of their type, all else is zero. -/
def UnpopulatedStats (n k : Nat) : Stats F where
  numPoints := n
  numAssigned := 0
  numClusters := k
  populated := 0
  minSize := 2 ^ 64 - 1
  maxSize := 0
  avgSize := FloatOps.zero
  sumDists := FloatOps.zero
  minDist := FloatOps.dblMax
  maxDist := FloatOps.zero
  avgMin := FloatOps.zero
  avgMax := FloatOps.zero
  avgWeighted := FloatOps.zero
  avgUnweighted := FloatOps.zero

/-- The pairs of points `i < j` with the same cluster. -/
def pairsWithin (cfg : Cfg) (b : Buf Int) (n : Nat) : List (Nat × Nat) :=
  (upperPairs (List.range n)).filter fun p => decide (b.get p.1 ≠ some cfg.na ∧ b.get p.1 = b.get p.2)

/-- Two points of a common cluster. -/
def SameCluster (b : Buf Int) (n k i j : Nat) : Prop := i < n ∧ j < n ∧ ∃ c, c < k ∧ b.get i = some (c : Int) ∧ b.get j = some (c : Int)

/-- The smallest and the largest distance within clusters. A cluster with one member counts as one with smallest distance zero; the largest distance is zero if no cluster has two members. -/
structure ExtremesAre (dist : Nat → Nat → F) (n k : Nat) (b : Buf Int) (s : Stats F) : Prop where
  alone : (∃ c, c < k ∧ (members b n c).length = 1) → s.minDist = FloatOps.zero
  min_le : ∀ i j, i ≠ j → SameCluster b n k i j → FloatOps.le s.minDist (dist i j) = true
  min_is : (∃ i j, i ≠ j ∧ SameCluster b n k i j) → (∀ c, c < k → (members b n c).length ≠ 1) →
    ∃ i j, i ≠ j ∧ SameCluster b n k i j ∧ FloatOps.le (dist i j) s.minDist = true
  le_max : ∀ i j, i ≠ j → SameCluster b n k i j → FloatOps.le (dist i j) s.maxDist = true
  max_is : (∃ i j, i ≠ j ∧ SameCluster b n k i j) → ∃ i j, i ≠ j ∧ SameCluster b n k i j ∧ FloatOps.le s.maxDist (dist i j) = true
  max_zero : (¬ ∃ i j, i ≠ j ∧ SameCluster b n k i j) → s.maxDist = FloatOps.zero

/-- What the distances have to satisfy for comparisons to make sense: the order laws, distances are symmetric, finite numbers and not negative. -/
structure FiniteDists (n : Nat) (dist : Nat → Nat → F) : Prop where
  order : FloatLaws F
  num : ∀ p q, p < n → q < n → IsNum (dist p q)
  nonneg : ∀ p q, p < n → q < n → FloatOps.le FloatOps.zero (dist p q) = true
  finite : ∀ p q, p < n → q < n → FloatOps.le (dist p q) FloatOps.dblMax = true
  symm : ∀ p q, p < n → q < n → dist p q = dist q p
  zeroNum : IsNum (FloatOps.zero : F)
  maxNum : IsNum (FloatOps.dblMax : F)

/-- Addition without rounding. -/
structure ExactAdd (F : Type) [FloatOps F] : Prop where
  zero_add : ∀ a : F, FloatOps.add FloatOps.zero a = a
  assoc : ∀ a b c : F, FloatOps.add (FloatOps.add a b) c = FloatOps.add a (FloatOps.add b c)
  comm : ∀ a b : F, FloatOps.add a b = FloatOps.add b a

/-- `get_dist_matrix` of the back end works as documented (include/scclust_spi.h): a successful call writes the distances of all pairs of the given points, in upper-triangular order, and touches nothing
else. It may report failure when an allocation fails or, if `mayRefuse`, at any time. -/
def MatrixOk (spi : Spi F) (n : Nat) (dist : Nat → Nat → F) (mayRefuse : Prop) : Prop :=
  ∀ (len : Nat) (points : Option Arr) (L : List Nat) (out : Buf F) (w : World), ArrHolds points L → L.length = len → (∀ x ∈ L, x < n) → 1 < len →
    (∀ i ∈ arrIds points, i ∈ w.live) → (upperPairs L).length ≤ out.len →
    WpM (spi.distMatrix len points out) w fun r w' => w'.fails = w.fails ∧ w'.err = w.err ∧ w'.live = w.live ∧
      match r with
      | none => ¬ w.NoFail ∨ mayRefuse
      | some out' => out'.len = out.len ∧ ∀ (i : Nat) (p : Nat × Nat), (upperPairs L)[i]? = some p → out'.get i = some (dist p.1 p.2)

/-- The preconditions of a call of `scc_get_clustering_stats`: the object and its label array are live, the labels are valid, and the distance matrix of all points has a size that is representable
(which is always so if `size_t` has 64 bits and point indices have 32). -/
structure StatsOk (cfg : Cfg) (ob : ClObj) (w : World) : Prop where
  config : cfg.Valid
  live : {ob.id} + ptrOwn ob.cl.label ≤ w.live
  labels : 0 < ob.cl.numClusters → ∀ lb, ob.cl.label = some lb → ValidLabels cfg lb.buf ob.cl.n ob.cl.numClusters
  room : ob.cl.n * (ob.cl.n - 1) ≤ cfg.sizeMax ∧ ob.cl.n * (ob.cl.n - 1) < 2 ^ 64

end Scc
