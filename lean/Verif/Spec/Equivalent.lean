/-
Specification of options that say the same.
-/
import Verif.Spec.Batches
import Verif.Spec.Clustering

namespace Scc

variable {F : Type}

/-- The options say the same in different ways: the settings that are used have the same meaning, and the settings that are not used are arbitrary. The primary points and the types of the points are not part
of this. The radius of a stage is the one that applies in the end, so a stage can use the seed radius or supply the same radius. -/
structure Equivalent (o o' : Options F) : Prop where
  size : o'.sizeConstraint = o.sizeConstraint
  types : o'.numTypes = o.numTypes ∨ o'.numTypes < 2 ∧ o.numTypes < 2
  seedMethod : o'.seedMethod = o.seedMethod
  primaryMethod : o'.primaryMethod = o.primaryMethod
  secondaryMethod : o'.secondaryMethod = o.secondaryMethod
  seedRadius : seedLimit o' = seedLimit o
  primaryRadius : ∀ est, stageRadius o' o.primaryMethod o'.primaryRadius o'.primarySupplied est = stageRadius o o.primaryMethod o.primaryRadius o.primarySupplied est
  secondaryRadius : ∀ est, stageRadius o' o.secondaryMethod o'.secondaryRadius o'.secondarySupplied est = stageRadius o o.secondaryMethod o.secondaryRadius o.secondarySupplied est
  primaryEstimate : UsesEstimate o.primaryMethod o'.primaryRadius ↔ UsesEstimate o.primaryMethod o.primaryRadius
  secondaryEstimate : UsesEstimate o.secondaryMethod o'.secondaryRadius ↔ UsesEstimate o.secondaryMethod o.secondaryRadius

end Scc
