/-
Specification for property C87: two objects that describe the same clustering.
-/
import Verif.Model.Objects

namespace Scc

/-- The objects have as many points and clusters as each other, and the same labels for the points. Their label arrays may differ in address, owner and length. -/
structure SameClustering (ob ob' : ClObj) : Prop where
  points : ob'.cl.n = ob.cl.n
  clusters : ob'.cl.numClusters = ob.cl.numClusters
  labels : ∀ lb lb', ob.cl.label = some lb → ob'.cl.label = some lb' → ∀ v, v < ob.cl.n → lb'.buf.get v = lb.buf.get v

end Scc
