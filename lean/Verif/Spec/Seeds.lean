/-
Specification vocabulary for seeds.
-/
import Verif.Spec.Digraph

namespace Scc

/-- A vertex together with its out-neighbours. -/
def closedNbr (rows : Nat → List Nat) (v : Nat) : List Nat := v :: rows v

/-- `v` can be added to the seeds `S`: it has arcs and its closed neighbourhood meets that of no seed. -/
def CanAdd (rows : Nat → List Nat) (S : List Nat) (v : Nat) : Prop :=
  rows v ≠ [] ∧ ∀ s ∈ S, ∀ x ∈ closedNbr rows v, x ∉ closedNbr rows s

instance (rows : Nat → List Nat) (S : List Nat) (v : Nat) : Decidable (CanAdd rows S v) := by
  unfold CanAdd; infer_instance

/-- Greedy seeds: consider the vertices in the given order and add each one that can be added. -/
def greedySeeds (rows : Nat → List Nat) (order : List Nat) : List Nat :=
  order.foldl (fun S v => if CanAdd rows S v then S ++ [v] else S) []

/-- `x` belongs to the closed neighbourhood of a seed. -/
def Captured (rows : Nat → List Nat) (S : List Nat) (x : Nat) : Prop := ∃ s ∈ S, x ∈ closedNbr rows s

instance (rows : Nat → List Nat) (S : List Nat) (v : Nat) : Decidable (Captured rows S v) := by
  unfold Captured; infer_instance

/-- Number of arcs to `y` from the vertices in `l`. -/
def arcsFrom (rows : Nat → List Nat) (l : List Nat) (y : Nat) : Nat := (l.map fun u => (rows u).count y).sum

/-- `order` lists the vertices in ascending order of the number of arcs pointing to them, ties by index. -/
def SortedByArcs (rows : Nat → List Nat) (n : Nat) (order : List Nat) : Prop :=
  order.Pairwise fun a b =>
    arcsFrom rows (List.range n) a < arcsFrom rows (List.range n) b ∨
    arcsFrom rows (List.range n) a = arcsFrom rows (List.range n) b ∧ a < b

/-- Whenever the next vertex considered (`v`) is unassigned and has arcs, no unassigned vertex with arcs that is still to be
considered has fewer arcs pointing to it from unassigned vertices that are still to be considered. -/
def DynamicByArcs (rows : Nat → List Nat) (order : List Nat) : Prop :=
  ∀ pre v post, order = pre ++ v :: post →
    let free := fun x => ¬ Captured rows (greedySeeds rows pre) x
    let left := (v :: post).filter fun x => decide (free x)
    free v → rows v ≠ [] → ∀ x ∈ post, free x → rows x ≠ [] → arcsFrom rows left v ≤ arcsFrom rows left x

/-- As `DynamicByArcs`, and among the vertices with the fewest arcs the one with the smallest index is considered. -/
def StableByArcs (rows : Nat → List Nat) (order : List Nat) : Prop :=
  ∀ pre v post, order = pre ++ v :: post →
    let free := fun x => ¬ Captured rows (greedySeeds rows pre) x
    let left := (v :: post).filter fun x => decide (free x)
    free v → rows v ≠ [] → ∀ x ∈ post, free x → rows x ≠ [] →
      arcsFrom rows left v < arcsFrom rows left x ∨ arcsFrom rows left v = arcsFrom rows left x ∧ v < x

/-- Two different vertices are in conflict: their closed neighbourhoods meet, so not both can be seeds. -/
def Conflict (rows : Nat → List Nat) (u v : Nat) : Prop := u ≠ v ∧ ∃ x ∈ closedNbr rows u, x ∈ closedNbr rows v

instance (rows : Nat → List Nat) (u v : Nat) : Decidable (Conflict rows u v) := by
  unfold Conflict; infer_instance

/-- Number of vertices in `l` that have arcs and are in conflict with `y`. -/
def conflictsFrom (rows : Nat → List Nat) (l : List Nat) (y : Nat) : Nat := l.countP fun u => decide (rows u ≠ [] ∧ Conflict rows u y)

/-- `order` lists the vertices in ascending order of the number of conflicts, ties by index. -/
def SortedByConflicts (rows : Nat → List Nat) (n : Nat) (order : List Nat) : Prop :=
  order.Pairwise fun a b =>
    conflictsFrom rows (List.range n) a < conflictsFrom rows (List.range n) b ∨
    conflictsFrom rows (List.range n) a = conflictsFrom rows (List.range n) b ∧ a < b

/-- Whenever the next vertex considered (`v`) can still be a seed, no vertex that can still be a seed has fewer conflicts with
vertices that can still be seeds. -/
def DynamicByConflicts (rows : Nat → List Nat) (order : List Nat) : Prop :=
  ∀ pre v post, order = pre ++ v :: post →
    let can := fun x => CanAdd rows (greedySeeds rows pre) x
    let left := (v :: post).filter fun x => decide (can x)
    can v → ∀ x ∈ post, can x → conflictsFrom rows left v ≤ conflictsFrom rows left x

/-- As `DynamicByConflicts`, and among the vertices with the fewest conflicts the one with the smallest index is considered. -/
def StableByConflicts (rows : Nat → List Nat) (order : List Nat) : Prop :=
  ∀ pre v post, order = pre ++ v :: post →
    let can := fun x => CanAdd rows (greedySeeds rows pre) x
    let left := (v :: post).filter fun x => decide (can x)
    can v → ∀ x ∈ post, can x → conflictsFrom rows left v < conflictsFrom rows left x ∨ conflictsFrom rows left v = conflictsFrom rows left x ∧ v < x

/-- Order in which a method considers the vertices. -/
def MethodOrder (m : SeedMethod) (rows : Nat → List Nat) (n : Nat) (o : List Nat) : Prop :=
  match m with
  | .lexical => o = List.range n
  | .inwardsOrder => SortedByArcs rows n o
  | .inwardsUpdating => DynamicByArcs rows o
  | .exclusionOrder => SortedByConflicts rows n o
  | .exclusionUpdating => DynamicByConflicts rows o

/-- Order in which a method considers the vertices when the library is built with `SCC_STABLE_FINDSEED`. -/
def StableOrder (m : SeedMethod) (rows : Nat → List Nat) (n : Nat) (o : List Nat) : Prop :=
  match m with
  | .inwardsUpdating => StableByArcs rows o
  | .exclusionUpdating => StableByConflicts rows o
  | m => MethodOrder m rows n o

/-- Order in which a method considers the vertices, given the build flag. -/
def BuildOrder (cfg : Cfg) (m : SeedMethod) (rows : Nat → List Nat) (n : Nat) (o : List Nat) : Prop :=
  MethodOrder m rows n o ∧ (cfg.stableSeeds = true → StableOrder m rows n o)

/-- Two digraphs on `n` vertices have the same arcs, possibly stored in a different order. -/
def SameArcs (n : Nat) (rows rows' : Nat → List Nat) : Prop := ∀ v, v < n → (rows v).Perm (rows' v)

/-- The seed result object `sr` holds the seeds `S`, in one block. -/
structure SeedResult.Holds (sr : SeedResult) (S : List Nat) : Prop where
  count : sr.count = S.length
  cap : S.length ≤ sr.capacity
  block : ∃ b, sr.seeds = some b ∧ b.buf.len = sr.capacity ∧ ∀ (i a : Nat), S[i]? = some a → b.buf.get i = some a

/-- The methods that build the exclusion graph. -/
def SeedMethod.IsExclusion (m : SeedMethod) : Prop := m = .exclusionOrder ∨ m = .exclusionUpdating

instance (m : SeedMethod) : Decidable m.IsExclusion := by unfold SeedMethod.IsExclusion; infer_instance

end Scc
