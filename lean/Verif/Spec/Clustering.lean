/-
Specification vocabulary for calls of `scc_sc_clustering`: preconditions of a call and what the labels of a clustering say.
-/
import Verif.Spec.Nng
import Verif.Spec.Radius
import Verif.Model.Objects

namespace Scc

variable {F : Type}

/-- The members of cluster `c`: the points among `0, ..., n - 1` whose label is `c`. -/
def members (b : Buf Int) (n c : Nat) : List Nat := (List.range n).filter fun v => decide (b.get v = some (c : Int))

/-- The points without cluster have the label "not available". -/
def Unassigned (cfg : Cfg) (b : Buf Int) (v : Nat) : Prop := b.get v = some cfg.na

/-- All labels of the `n` points are "not available" or one of `0, ..., k - 1`. -/
def ValidLabels (cfg : Cfg) (b : Buf Int) (n k : Nat) : Prop := ∀ v, v < n → Unassigned cfg b v ∨ ∃ c, c < k ∧ b.get v = some (c : Int)

/-- The preconditions of a call of `scc_sc_clustering` for the clustering object `ob`: the object and its label array are live, the label array is large enough,
the option arrays are as described by the options, and sizes are within the limits of the machine's integer types. The fields say nothing about the validity of
options, which the code checks. `unchecked` excludes failures of the four allocations that the code does not check (see property C38). -/
structure CallOk [FloatOps F] (cfg : Cfg) (o : Options F) (ob : ClObj) (P : List Nat) (lab c : Nat → Nat) (w : World) : Prop where
  config : cfg.Valid
  live : {ob.id} + ptrOwn ob.cl.label ≤ w.live
  room : ∀ lb, ob.cl.label = some lb → ob.cl.n ≤ lb.buf.len
  arrays : OptionArrays ob.cl.n o P lab c
  limits : ValidOptions o ob.cl.n P → WithinLimits cfg ob.cl.n o c
  unchecked : w.UncheckedOk

/-- Why a call is rejected before anything is done, and the error code that is returned. -/
def Rejects [FloatOps F] (cfg : Cfg) (valid : Bool) (numPoints : Nat) (o : Options F) (cl : Clustering) (P : List Nat) (e : ErrorCode) : Prop :=
  e = .invalidInput ∧ (cl.isInitialized cfg = false ∨ valid = false ∨ numPoints ≠ cl.n) ∨
  ¬ ValidOptions o cl.n P ∧ RejectCode o cl.n P e ∨
  e = .notImplemented ∧ ValidOptions o cl.n P ∧ cl.numClusters ≠ 0

/-- The call is not rejected. -/
structure Accepts [FloatOps F] (cfg : Cfg) (valid : Bool) (numPoints : Nat) (o : Options F) (cl : Clustering) (P : List Nat) : Prop where
  initialized : cl.isInitialized cfg = true
  valid : valid = true
  points : numPoints = cl.n
  options : ValidOptions o cl.n P
  empty : cl.numClusters = 0

/-! ### Seeds and assignment rules -/

/-- Point `x` is the `i`-th seed or belongs to its neighbourhood. -/
def CapturedBy (N : Nat → List Nat) (seeds : List Nat) (i x : Nat) : Prop := ∃ s, seeds[i]? = some s ∧ x ∈ closedNbr N s

/-- The clusters are built around seeds: `N` gives the neighbourhoods that the search found, each of the `k` clusters has one seed, which is a primary point,
and contains the seed and its neighbourhood. Seeds and neighbourhoods have no repetitions. -/
structure SeedClusters (cfg : Cfg) (A : Criterion F) (n : Nat) (o : Options F) (P : List Nat) (lab c : Nat → Nat) (k : Nat) (b : Buf Int) (N : Nat → List Nat) (seeds : List Nat) : Prop where
  neighbourhoods : NngStored cfg A n o P lab c N
  count : seeds.length = k
  primary : ∀ s ∈ seeds, s < n ∧ s ∈ P ∧ N s ≠ []
  captured : ∀ i x, CapturedBy N seeds i x → x < n ∧ b.get x = some (i : Int)
  distinct : seeds.Nodup ∧ ∀ s ∈ seeds, (s :: N s).Nodup

/-- Answers to nearest neighbour queries are the `k` nearest points, where `le q x y` says that `x` is no farther from `q` than `y`, and `within q x r` that `x` is
within distance `r` of `q`. There is no answer only if fewer than `k` points are within the radius. -/
def Nearest (le : Nat → Nat → Nat → Prop) (within : Nat → Nat → F → Prop) : Criterion F := fun set k R q a =>
  match a with
  | some l => (∀ r, R = some r → ∀ x ∈ l, within q x r) ∧ l.Pairwise (le q) ∧ ∀ x ∈ l, ∀ y ∈ set, y ∉ l → le q x y
  | none => ∃ r, R = some r ∧ ∀ l, l.Nodup → l ⊆ set → (∀ x ∈ l, within q x r) → l.length < k

/-- Point `v`, which no seed captures, may get the label `i` according to the method: because a neighbour of `v` was captured by the `i`-th seed, because a nearest
captured point was, or because the `i`-th seed is a nearest seed. -/
def MayJoin (le : Nat → Nat → Nat → Prop) (N : Nat → List Nat) (seeds : List Nat) (um : UnassignedMethod) (v i : Nat) : Prop :=
  match um with
  | .anyNeighbor => ∃ x ∈ N v, CapturedBy N seeds i x
  | .closestAssigned => ∃ x, CapturedBy N seeds i x ∧ ∀ j y, CapturedBy N seeds j y → le v x y
  | .closestSeed => ∃ s, seeds[i]? = some s ∧ ∀ s' ∈ seeds, le v s s'
  | _ => False

/-! ### A successful run -/

section
variable [FloatOps F]

/-- Does the stage use the estimated radius? -/
def UsesEstimate (um : UnassignedMethod) (m : RadiusMethod) : Prop := um ≠ .ignore ∧ m = .useEstimated

/-- The estimate is used and is not positive. -/
def BadEstimate (dist : Nat → Nat → F) (o : Options F) (rows : Nat → List Nat) (seeds : List Nat) : Prop :=
  (UsesEstimate o.primaryMethod o.primaryRadius ∨ UsesEstimate o.secondaryMethod o.secondaryRadius) ∧ FloatOps.lt FloatOps.zero (seedEstimate dist rows seeds) = false

/-- Labels and their number after a successful run: `rows` is the digraph, `order` the order in which seeds were considered, and `L2`, `L3` and `L` are the labels after
the digraph stage, after the stage for primary points and after the stage for all points. -/
structure RunData (cfg : Cfg) (A : Criterion F) (dist : Nat → Nat → F) (n : Nat) (o : Options F) (m : SeedMethod) (P : List Nat) (lab c : Nat → Nat) (lost : Prop)
    (rows : Nat → List Nat) (order : List Nat) (L2 L3 L : Nat → Option Nat) (k : Nat) (l : Buf Int) : Prop where
  nng : NngStored cfg A n o P lab c rows
  perm : order.Perm (List.range n)
  method : BuildOrder cfg m rows n order
  seeds_ne : greedySeeds rows order ≠ []
  count : k = (greedySeeds rows order).length
  cap : k ≤ cfg.clabelMax
  estimate : ¬ BadEstimate dist o rows (greedySeeds rows order)
  staged : Staged A n rows (greedySeeds rows order) (decide (o.numTypes < 2)) o.primaryMethod
    (stageRadius o o.primaryMethod o.primaryRadius o.primarySupplied (seedEstimate dist rows (greedySeeds rows order))) P o.secondaryMethod
    (stageRadius o o.secondaryMethod o.secondaryRadius o.secondarySupplied (seedEstimate dist rows (greedySeeds rows order))) lost L2 L3 L
  labels : LabelsAre cfg n l L

end

/-- A digraph or a number of clusters that may be too large. The exclusion methods build a digraph with up to `n * n` arcs. -/
def TooBig (cfg : Cfg) (n S : Nat) (m : SeedMethod) : Prop := cfg.arcMax < n * S ∨ cfg.clabelMax < n ∨ m.IsExclusion ∧ (cfg.arcMax < n * n ∨ cfg.sizeMax < n * n)

end Scc
