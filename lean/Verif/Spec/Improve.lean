/-
Specification for property C86: how the statistics change when a clustering is refined.
-/
import Verif.Spec.Stats

namespace Scc

/-- The statistics `new` after a refinement with size constraint `S`, compared with those before: the same points are assigned, there are no fewer clusters and no empty ones, the largest cluster is not larger and has
fewer than `2 * S` points, the largest distance within clusters is not larger and the smallest is not smaller. -/
structure StatsImproved {F : Type} [FloatOps F] (S : Nat) (old new : Stats F) : Prop where
  points : new.numPoints = old.numPoints
  assigned : new.numAssigned = old.numAssigned
  populated : old.populated ≤ new.populated ∧ new.populated = new.numClusters
  maxSize : new.maxSize ≤ old.maxSize ∧ new.maxSize < 2 * S
  maxDist : FloatOps.le new.maxDist old.maxDist = true
  minDist : FloatOps.le old.minDist new.minDist = true

/-- Addition respects the order. -/
def AddMono (F : Type) [FloatOps F] : Prop := ∀ a b c : F, FloatOps.le a b = true → FloatOps.le (FloatOps.add c a) (FloatOps.add c b) = true

end Scc
