/-
Statistics in `double` compared with statistics in exact arithmetic, for property C78.
-/
import Verif.Spec.Double
import Verif.Spec.Exact
import Verif.Spec.Stats

namespace Scc

/-- `d` is a finite number and differs from `x` by at most `ε x`. -/
def RelErr (ε x : ℝ) (d : Dbl) : Prop := ∃ y, d = .fin y ∧ |y - x| ≤ ε * x

/-- The statistics `s` are the statistics `t` with relative errors of at most `ε`; counts are equal. -/
structure StatsNear (ε : ℝ) (t : Stats ℝ) (s : Stats Dbl) : Prop where
  numPoints : s.numPoints = t.numPoints
  numAssigned : s.numAssigned = t.numAssigned
  numClusters : s.numClusters = t.numClusters
  populated : s.populated = t.populated
  minSize : s.minSize = t.minSize
  maxSize : s.maxSize = t.maxSize
  avgSize : RelErr ε t.avgSize s.avgSize
  sumDists : RelErr ε t.sumDists s.sumDists
  minDist : RelErr ε t.minDist s.minDist
  maxDist : RelErr ε t.maxDist s.maxDist
  avgMin : RelErr ε t.avgMin s.avgMin
  avgMax : RelErr ε t.avgMax s.avgMax
  avgWeighted : RelErr ε t.avgWeighted s.avgWeighted
  avgUnweighted : RelErr ε t.avgUnweighted s.avgUnweighted

end Scc
