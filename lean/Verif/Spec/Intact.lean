/-
What a client may rely on when it goes on to use a clustering object.
-/
import Verif.Spec.Clustering

namespace Scc

/-- The clustering object can be used: it is initialized and live, its label array is live and large enough, and unless it is empty every point has the label of one of its clusters or no label. -/
structure Intact (cfg : Cfg) (ob : ClObj) (w : World) : Prop where
  initialized : ob.cl.isInitialized cfg = true
  live : {ob.id} + ptrOwn ob.cl.label ≤ w.live
  room : ∀ lb, ob.cl.label = some lb → ob.cl.n ≤ lb.buf.len
  labels : 0 < ob.cl.numClusters → ∀ lb, ob.cl.label = some lb → ValidLabels cfg lb.buf ob.cl.n ob.cl.numClusters

end Scc
