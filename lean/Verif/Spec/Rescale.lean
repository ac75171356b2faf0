/-
Specification for changing the unit of measurement in `double`: data sets that differ by a power of two.
-/
import Verif.Spec.Compare
import Verif.Spec.Double
import Verif.Spec.Stats

namespace Scc

noncomputable section

/-- The second data set is the first with all coordinates multiplied by `2 ^ e`; each dimension may be mirrored, and it may be shifted. All coordinates are the exact results of this, and distances can
be computed in both data sets without overflow and underflow. -/
structure Rescaled (e : ℤ) (ds ds' : DataSet Dbl) : Prop where
  exact : ds.Exact
  exact' : ds'.Exact
  moderate : ds.Moderate
  moderate' : ds'.Moderate
  num : ds.n = ds'.n
  dims : ds.dims = ds'.dims
  coord : ∃ s b : Nat → ℝ, (∀ t, |s t| = 1) ∧ ∀ i t, i < ds.n → t < ds.dims → ds'.realCoord i t = s t * (2 ^ e * ds.realCoord i t) + b t

/-- A number multiplied by `2 ^ e`. -/
def Dbl.times (e : ℤ) : Dbl → Dbl
  | .nan => .nan
  | .inf s => .inf s
  | .fin x => .fin (2 ^ e * x)

/-- The options with all supplied radii multiplied by `2 ^ e`. -/
def Options.rescaled (e : ℤ) (o : Options Dbl) : Options Dbl :=
  { o with seedSupplied := o.seedSupplied.times e, primarySupplied := o.primarySupplied.times e, secondarySupplied := o.secondarySupplied.times e }

/-- A radius that can be squared without overflow and underflow, and so can the radius multiplied by `2 ^ e`. -/
def ModerateRadius (e : ℤ) (r : Dbl) : Prop :=
  ∃ x, r = .fin x ∧ 2 ^ (-500 : ℤ) ≤ |x| ∧ |x| ≤ 2 ^ (500 : ℤ) ∧ 2 ^ (-500 : ℤ) ≤ 2 ^ e * |x| ∧ 2 ^ e * |x| ≤ 2 ^ (500 : ℤ)

/-- Different coordinates differ by at least 2^-400 and at most 2^400, so that there is room for means of distances and their squares. -/
def DataSet.RoomForMeans (ds : DataSet Dbl) : Prop :=
  ∀ i j t, i < ds.n → j < ds.n → t < ds.dims →
    ds.realCoord i t = ds.realCoord j t ∨ 2 ^ (-400 : ℤ) ≤ |ds.realCoord i t - ds.realCoord j t| ∧ |ds.realCoord i t - ds.realCoord j t| ≤ 2 ^ (400 : ℤ)

/-- The radii that are supplied are such. -/
structure ModerateRadii (e : ℤ) (o : Options Dbl) : Prop where
  seed : o.seedRadius = .useSupplied → ModerateRadius e o.seedSupplied
  primary : o.primaryRadius = .useSupplied → ModerateRadius e o.primarySupplied
  secondary : o.secondaryRadius = .useSupplied → ModerateRadius e o.secondarySupplied

/-- Statistics of the same clustering in two units: counts and sizes are the same, and all distances are multiplied by `2 ^ e`. (If no point has a cluster, the smallest distance is reported as
`DBL_MAX` in both.) -/
structure StatsRescaled (e : ℤ) (s s' : Stats Dbl) : Prop where
  numPoints : s'.numPoints = s.numPoints
  numAssigned : s'.numAssigned = s.numAssigned
  numClusters : s'.numClusters = s.numClusters
  populated : s'.populated = s.populated
  minSize : s'.minSize = s.minSize
  maxSize : s'.maxSize = s.maxSize
  avgSize : s'.avgSize = s.avgSize
  sumDists : s'.sumDists = s.sumDists.times e
  minDist : 0 < s.numAssigned → s'.minDist = s.minDist.times e
  noDist : s.numAssigned = 0 → s'.minDist = s.minDist
  maxDist : s'.maxDist = s.maxDist.times e
  avgMin : s'.avgMin = s.avgMin.times e
  avgMax : s'.avgMax = s.avgMax.times e
  avgWeighted : s'.avgWeighted = s.avgWeighted.times e
  avgUnweighted : s'.avgUnweighted = s.avgUnweighted.times e

end

end Scc
