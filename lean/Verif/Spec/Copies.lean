/-
Points that are at the same place.
-/
import Verif.Spec.Double
import Verif.Model.Options

namespace Scc

/-- Two points have the same coordinates. -/
def DataSet.SamePlace (ds : DataSet Dbl) (x y : Nat) : Prop := ∀ t, t < ds.dims → ds.realCoord x t = ds.realCoord y t

open Classical in
/-- The points at the place of `q`, with `q` itself. -/
noncomputable def DataSet.copiesOf (ds : DataSet Dbl) (q : Nat) : List Nat := (List.range ds.n).filter fun x => ds.SamePlace x q

/-- There are so many copies of each primary point that they could be a cluster: as many as the size constraint and, with types, enough of each type. -/
def DataSet.EnoughCopies (ds : DataSet Dbl) (o : Options Dbl) (P : List Nat) (lab c : Nat → Nat) : Prop :=
  ∀ q ∈ P, o.sizeConstraint ≤ (ds.copiesOf q).length ∧ (2 ≤ o.numTypes → ∀ t, t < o.numTypes → c t ≤ (ds.copiesOf q).countP fun x => lab x = t)

end Scc
