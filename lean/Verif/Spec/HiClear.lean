/-
Specification vocabulary for property C83: when the result of `scc_hierarchical_clustering` is determined by the distances within a cluster.
-/
import Verif.Spec.Hierarchical

namespace Scc

variable {F G : Type} [FloatOps F] [FloatOps G]

/-- No point of `Y` is farther from `a` or from `b` than these two points of `Y` are from each other. -/
structure MutuallyFarthest (dist : Nat → Nat → F) (Y : List Nat) (a b : Nat) : Prop where
  mem1 : a ∈ Y
  mem2 : b ∈ Y
  far1 : ∀ y ∈ Y, FloatOps.le (dist a y) (dist a b) = true
  far2 : ∀ y ∈ Y, FloatOps.le (dist b y) (dist a b) = true

/-- Two pairs of points have the same points. -/
def SamePair (a b c d : Nat) : Prop := a = c ∧ b = d ∨ a = d ∧ b = c

/-- No two pairs of points of `X` are equally far apart. -/
def NoTiedPairs (dist : Nat → Nat → F) (X : List Nat) : Prop :=
  ∀ x ∈ X, ∀ y ∈ X, ∀ u ∈ X, ∀ v ∈ X, x ≠ y → u ≠ v → FloatOps.le (dist x y) (dist u v) = true → FloatOps.le (dist u v) (dist x y) = true → SamePair x y u v

/-- No set of `2 * S` or more points of `X` has two different pairs of points that are farthest from each other. -/
def OneFarthestPair (S : Nat) (dist : Nat → Nat → F) (X : List Nat) : Prop :=
  ∀ Y : List Nat, Y.Nodup → Y ⊆ X → 2 * S ≤ Y.length → ∀ a b c d, MutuallyFarthest dist Y a b → MutuallyFarthest dist Y c d → SamePair a b c d

/-- The points of `X` are on a line, at the positions `pos`: pairs of points compare as the distances between their positions. -/
def OnLine (dist : Nat → Nat → F) (X : List Nat) (pos : Nat → Int) : Prop :=
  ∀ x ∈ X, ∀ y ∈ X, ∀ u ∈ X, ∀ v ∈ X, (FloatOps.le (dist x y) (dist u v) = true ↔ (pos x - pos y).natAbs ≤ (pos u - pos v).natAbs)

/-- `X` is one of the clusters that a call of `scc_hierarchical_clustering` starts with: the set of all points if the clustering is empty, otherwise the members of a cluster. -/
def StartsWith (cl : Clustering) (X : List Nat) : Prop :=
  cl.numClusters = 0 ∧ X = List.range cl.n ∨ ∃ c, c < cl.numClusters ∧ X = members (ptrBuf cl.label) cl.n c

/-- `X'` are the points of `X` under other names, given by `ι`, and in another order. The distances may be different, but they compare alike. -/
structure RenamedCluster (dist : Nat → Nat → F) (X : List Nat) (dist' : Nat → Nat → G) (X' : List Nat) (ι : Nat → Nat) : Prop where
  points : X'.Perm (X.map ι)
  compare : ∀ x ∈ X, ∀ y ∈ X, ∀ u ∈ X, ∀ v ∈ X, FloatOps.le (dist' (ι x) (ι y)) (dist' (ι u) (ι v)) = FloatOps.le (dist x y) (dist u v)

end Scc
