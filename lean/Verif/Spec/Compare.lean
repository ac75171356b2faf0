/-
Specification for the claim that only comparisons of distances matter: when two data sets, possibly with different number types, compare alike.
-/
import Verif.Spec.Spi
import Verif.Model.Hierarchical

namespace Scc

variable {F G : Type} [FloatOps F] [FloatOps G]

/-- A data set object as `scc_init_data_set` makes it for a matrix of exactly `n` times `dims` numbers. -/
structure DataSet.Exact (ds : DataSet F) : Prop where
  init : ds.isInitialized = true
  complete : ds.Complete
  len : ds.buf.len = ds.n * ds.dims

/-- Two numbers compare in the same way as two other numbers. -/
def SameCmp (x y : F) (x' y' : G) : Prop := FloatOps.lt x y = FloatOps.lt x' y' ∧ FloatOps.le x y = FloatOps.le x' y'

/-- The data sets have the same number of points, and for each point the (squared) distances from it to two other points compare alike in both. -/
structure SameNear (ds : DataSet F) (ds' : DataSet G) : Prop where
  exact : ds.Exact
  exact' : ds'.Exact
  num : ds.n = ds'.n
  near : ∀ q x y, q < ds.n → x < ds.n → y < ds.n → SameCmp (ds.sqd q x) (ds.sqd q y) (ds'.sqd q x) (ds'.sqd q y)

/-- The data sets compare alike as above, and any two distances, whichever points they are between, compare alike in both. Squared distances are larger than `-1`, from which the search for the
largest distance starts, and distances compare alike with `-1`. -/
structure SameFar (ds : DataSet F) (ds' : DataSet G) : Prop extends SameNear ds ds' where
  positive : ∀ p q, p < ds.n → q < ds.n → FloatOps.lt FloatOps.negOne (ds.sqd p q) = true ∧ FloatOps.lt FloatOps.negOne (ds'.sqd p q) = true
  far : ∀ p q r s, p < ds.n → q < ds.n → r < ds.n → s < ds.n → SameCmp (ds.dist p q) (ds.dist r s) (ds'.dist p q) (ds'.dist r s)
  start : ∀ p q, p < ds.n → q < ds.n → FloatOps.lt FloatOps.negOne (ds.dist p q) = FloatOps.lt FloatOps.negOne (ds'.dist p q)

/-- A radius for the first data set and one for the second have the same sign, and the same pairs of points are within them. (The code compares squared distances with the square of the radius.) -/
structure SameRadius (ds : DataSet F) (ds' : DataSet G) (r : F) (r' : G) : Prop where
  sign : FloatOps.le r FloatOps.zero = FloatOps.le r' FloatOps.zero
  within : ∀ q x, q < ds.n → x < ds.n → FloatOps.lt (FloatOps.mul r r) (ds.sqd q x) = FloatOps.lt (FloatOps.mul r' r') (ds'.sqd q x)

/-- The options are the same except for the radii. Supplied radii compare alike with the distances in the data sets. -/
structure SameOptions (ds : DataSet F) (ds' : DataSet G) (o : Options F) (o' : Options G) : Prop where
  version : o.version = o'.version
  size : o.sizeConstraint = o'.sizeConstraint
  numTypes : o.numTypes = o'.numTypes
  typeConstraints : o.typeConstraints = o'.typeConstraints
  lenTypeLabels : o.lenTypeLabels = o'.lenTypeLabels
  typeLabels : o.typeLabels = o'.typeLabels
  seedMethod : o.seedMethod = o'.seedMethod
  lenPrimary : o.lenPrimary = o'.lenPrimary
  primary : o.primary = o'.primary
  primaryMethod : o.primaryMethod = o'.primaryMethod
  secondaryMethod : o.secondaryMethod = o'.secondaryMethod
  batchSize : o.batchSize = o'.batchSize
  seedRadius : o.seedRadius = o'.seedRadius
  primaryRadius : o.primaryRadius = o'.primaryRadius
  secondaryRadius : o.secondaryRadius = o'.secondaryRadius
  seed : o.seedRadius = .useSupplied → SameRadius ds ds' o.seedSupplied o'.seedSupplied
  primaryR : o.primaryRadius = .useSupplied → SameRadius ds ds' o.primarySupplied o'.primarySupplied
  secondaryR : o.secondaryRadius = .useSupplied → SameRadius ds ds' o.secondarySupplied o'.secondarySupplied

/-- No radius is estimated. -/
structure NoEstimate (o : Options F) : Prop where
  primary : o.primaryMethod ≠ .ignore → o.primaryRadius ≠ .useEstimated
  secondary : o.secondaryMethod ≠ .ignore → o.secondaryRadius ≠ .useEstimated

/-- Two edges of a list for sorting: to the same point, with distances that belong together. -/
def EdgeAlike (D : F → G → Prop) (a : Nat × F) (b : Nat × G) : Prop := a.1 = b.1 ∧ D a.2 b.2

/-- The two versions of `qsort` do the same on lists that compare alike, and the capacities of the stack are the same. -/
structure SameEnv (hi : HiEnv F) (hi' : HiEnv G) : Prop where
  sort : ∀ (D : F → G → Prop) l l', (∀ x y x' y', D x x' → D y y' → SameCmp x y x' y') → List.Forall₂ (EdgeAlike D) l l' → List.Forall₂ (EdgeAlike D) (hi.qsort l) (hi'.qsort l')
  cap : hi.logCap = hi'.logCap

end Scc
