/-
Specification of the algorithm of `scc_hierarchical_clustering`: clusters are broken in two, again and again, until they have fewer than twice as many points as the size constraint.

Nothing here mentions stacks, markers, edge lists or other parts of the implementation.
-/
import Verif.Spec.Hierarchical

namespace Scc

variable {F : Type} [FloatOps F]

/-- `xs` are `k` points of `U` with the smallest values of `d`, and `V` are the other points of `U`. -/
structure Takes (d : Nat → F) (U : List Nat) (k : Nat) (xs V : List Nat) : Prop where
  split : U.Perm (xs ++ V)
  count : xs.length = k
  nearest : ∀ x ∈ xs, ∀ y ∈ V, FloatOps.le (d x) (d y) = true

/-- `a` is a point of `xs` with the largest value of `d`. -/
def Outermost (d : Nat → F) (xs : List Nat) (a : Nat) : Prop := a ∈ xs ∧ ∀ x ∈ xs, FloatOps.le (d x) (d a) = true

/-- The centers of a cluster: two points such that no point of the cluster is farther from either of them than they are from each other. They are also at least as far from each other as any
point is from any of a number of points of the cluster: half of the points, or 100 if that is less. -/
structure Centers (dist : Nat → Nat → F) (X : List Nat) (c1 c2 : Nat) : Prop where
  mem1 : c1 ∈ X
  mem2 : c2 ∈ X
  far1 : ∀ y ∈ X, FloatOps.le (dist c1 y) (dist c1 c2) = true
  far2 : ∀ y ∈ X, FloatOps.le (dist c2 y) (dist c1 c2) = true
  wide : ∃ Q : List Nat, Q.Nodup ∧ Q ⊆ X ∧ min 100 ((X.length + 1) / 2) ≤ Q.length ∧ ∀ q ∈ Q, ∀ y ∈ X, FloatOps.le (dist q y) (dist c1 c2) = true

/-- The first points of the two new clusters, besides the centers: `A` and `B` with `k` points each; `V` are the points that are left. The center whose nearest `k` points
extend farther goes first (the first center in case of a tie); the other one takes its nearest points from the rest. -/
inductive Cores (d1 d2 : Nat → F) (k : Nat) (U : List Nat) : List Nat → List Nat → List Nat → Prop
  | first {xs V ys W zs Z : List Nat} {a b : Nat} : Takes d1 U k xs V → Takes d2 U k ys W → Outermost d1 xs a → Outermost d2 ys b → FloatOps.le (d2 b) (d1 a) = true →
      Takes d2 V k zs Z → Cores d1 d2 k U xs zs Z
  | second {xs V ys W zs Z : List Nat} {a b : Nat} : Takes d1 U k xs V → Takes d2 U k ys W → Outermost d1 xs a → Outermost d2 ys b → FloatOps.le (d2 b) (d1 a) = false →
      Takes d1 W k zs Z → Cores d1 d2 k U zs ys Z

/-- The points `U` that are left are assigned in rounds. In each round both centers look for their nearest `k` points (or all, if fewer are left). The center whose points are closer (by the
distance to the farthest of them; the first center in case of a tie) takes its points. The first center gets `A` and the second center `B`. -/
inductive Rounds (d1 d2 : Nat → F) (k : Nat) : List Nat → List Nat → List Nat → Prop
  | done : Rounds d1 d2 k [] [] []
  | first {U xs V ys W A B : List Nat} {a b : Nat} : U ≠ [] → Takes d1 U (min k U.length) xs V → Takes d2 U (min k U.length) ys W → Outermost d1 xs a → Outermost d2 ys b →
      FloatOps.le (d1 a) (d2 b) = true → Rounds d1 d2 k V A B → Rounds d1 d2 k U (xs ++ A) B
  | second {U xs V ys W A B : List Nat} {a b : Nat} : U ≠ [] → Takes d1 U (min k U.length) xs V → Takes d2 U (min k U.length) ys W → Outermost d1 xs a → Outermost d2 ys b →
      FloatOps.le (d1 a) (d2 b) = false → Rounds d1 d2 k W A B → Rounds d1 d2 k U A (ys ++ B)

/-- The cluster `X` is broken into `A` and `B`: two centers, `S - 1` first points for each of them, and the points that are left, which are assigned in batches of `S` points or one at a time. -/
def SplitOf (S : Nat) (batch : Bool) (dist : Nat → Nat → F) (X A B : List Nat) : Prop :=
  ∃ (c1 c2 : Nat) (U A0 B0 V A1 B1 : List Nat), Centers dist X c1 c2 ∧ X.Perm (c1 :: c2 :: U) ∧ Cores (dist c1) (dist c2) (S - 1) U A0 B0 V ∧
    Rounds (dist c1) (dist c2) (if batch then S else 1) V A1 B1 ∧ A.Perm (c1 :: (A0 ++ A1)) ∧ B.Perm (c2 :: (B0 ++ B1))

/-- `HiTree S batch dist X leaves`: starting with the cluster `X` and breaking clusters with `2 * S` or more points, one ends up with the clusters `leaves`, from last to first. -/
inductive HiTree (S : Nat) (batch : Bool) (dist : Nat → Nat → F) : List Nat → List (List Nat) → Prop
  | none : HiTree S batch dist [] []
  | leaf {X L : List Nat} : X ≠ [] → X.length < 2 * S → L.Perm X → HiTree S batch dist X [L]
  | node {X A B : List Nat} {ls rs : List (List Nat)} : 2 * S ≤ X.length → SplitOf S batch dist X A B → HiTree S batch dist A ls → HiTree S batch dist B rs →
      HiTree S batch dist X (rs ++ ls)

/-- The points `X` fall into two groups, told apart by `g`, with at least `S` points each. Seen from any point, the points of the other group are farther away than those of its own group,
whichever way distances are measured. -/
structure TwoGroups (S : Nat) (dist : Nat → Nat → F) (X : List Nat) (g : Nat → Bool) : Prop where
  large : ∀ b, S ≤ (X.filter fun x => g x = b).length
  from_point : ∀ q ∈ X, ∀ x ∈ X, ∀ y ∈ X, g x = g q → g y ≠ g q → FloatOps.le (dist q y) (dist q x) = false
  to_point : ∀ q ∈ X, ∀ x ∈ X, ∀ y ∈ X, g x = g q → g y ≠ g q → FloatOps.le (dist y q) (dist x q) = false

end Scc
