/-
Specification of radius constraints that exclude nothing.
-/
import Verif.Spec.Nng

namespace Scc

variable {F : Type}

/-- The radius `r` excludes nothing: the answers that are acceptable without radius are acceptable with it. -/
def NoEffect (n : Nat) (A : Criterion F) (r : F) : Prop :=
  ∀ set k q l, (∀ x ∈ set, x < n) → q < n → l ⊆ set → A set k none q (some l) → A set k (some r) q (some l)

/-- The radius setting `m'` is `m`, or the radius `r` that `m` supplies excludes nothing and `m'` has no radius. -/
def Dropped (n : Nat) (A : Criterion F) (m : RadiusMethod) (r : F) (m' : RadiusMethod) : Prop := m' = m ∨ m = .useSupplied ∧ m' = .noRadius ∧ NoEffect n A r

/-- The options `o'` are `o` without some radii that exclude nothing. -/
structure WithoutRadii (n : Nat) (A : Criterion F) (o o' : Options F) : Prop where
  rest : o' = { o with seedRadius := o'.seedRadius, primaryRadius := o'.primaryRadius, secondaryRadius := o'.secondaryRadius }
  seed : Dropped n A o.seedRadius o.seedSupplied o'.seedRadius
  primary : Dropped n A o.primaryRadius o.primarySupplied o'.primaryRadius
  secondary : Dropped n A o.secondaryRadius o.secondarySupplied o'.secondaryRadius

/-- No squared distance between the points of the data set exceeds the square of `r`. -/
def DataSet.Inside [FloatOps F] (ds : DataSet F) (r : F) : Prop := ∀ q x, q < ds.n → x < ds.n → FloatOps.lt (FloatOps.mul r r) (ds.sqd q x) = false

end Scc
