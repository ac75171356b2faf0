/-
Vocabulary for the property about builds with assertions (C69).
-/
import Verif.Spec.Options

namespace Scc

variable {F : Type} [FloatOps F]

/-- The supplied radii that are used are positive. The options check rejects radii that are zero or negative, but it accepts a NaN, which is not positive. -/
structure PositiveRadii (o : Options F) : Prop where
  seed : o.seedRadius = .useSupplied → FloatOps.lt FloatOps.zero o.seedSupplied = true
  primary : o.primaryRadius = .useSupplied → FloatOps.lt FloatOps.zero o.primarySupplied = true
  secondary : o.secondaryRadius = .useSupplied → FloatOps.lt FloatOps.zero o.secondarySupplied = true

end Scc
