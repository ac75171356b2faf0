/-
Specification for property C84: how the statistics that `scc_get_clustering_stats` reports are related to each other.
-/
import Verif.Spec.StatsDouble

namespace Scc

/-- The statistics of a clustering with at least one assigned point fit together; `le` compares numbers. -/
structure StatsConsistent {F : Type} [FloatOps F] (le : F → F → Prop) (s : Stats F) : Prop where
  populated : 0 < s.populated ∧ s.populated ≤ s.numClusters
  assigned : s.populated ≤ s.numAssigned ∧ s.numAssigned ≤ s.numPoints
  /-- all clusters together have the assigned points -/
  sizes : 0 < s.minSize ∧ s.minSize * s.populated ≤ s.numAssigned ∧ s.numAssigned ≤ s.maxSize * s.populated
  avgSize : le (FloatOps.ofNat s.minSize) s.avgSize ∧ le s.avgSize (FloatOps.ofNat s.maxSize)
  nonneg : le FloatOps.zero s.minDist
  min_avgMin : le s.minDist s.avgMin
  avgMin_avg : le s.avgMin s.avgUnweighted
  avg_avgMax : le s.avgUnweighted s.avgMax
  avgMax_max : le s.avgMax s.maxDist
  weighted : le s.minDist s.avgWeighted ∧ le s.avgWeighted s.maxDist

/-- The number `a` is at most the number `b` if both may have a relative error of `ε`. -/
def NearlyLe (ε : ℝ) (a b : Dbl) : Prop := ∃ x y, a = .fin x ∧ b = .fin y ∧ (1 - ε) * x ≤ (1 + ε) * y

end Scc
