/-
Groups and copies of points in data sets of `double` values, for property C79.
-/
import Verif.Spec.Double

namespace Scc

/-- Seen from any point, points of other groups are more than `1 + 2^-31` times as far away as points of its own group. `g` gives the group of each point; distances are Euclidean, without rounding. -/
def DataSet.FarGroups {γ : Type} (ds : DataSet Dbl) (g : Nat → γ) : Prop :=
  ∀ q x y, q < ds.n → x < ds.n → y < ds.n → g x = g q → g y ≠ g q → nearFactor * ds.eudist q x < ds.eudist q y

/-- Fewer than `m` points are at the same place. -/
def DataSet.CopiesBelow (ds : DataSet Dbl) (m : Nat) : Prop :=
  ∀ l : List Nat, l.Nodup → (∀ x ∈ l, x < ds.n) → (∀ x ∈ l, ∀ y ∈ l, ∀ t, t < ds.dims → ds.realCoord x t = ds.realCoord y t) → l.length < m

end Scc
