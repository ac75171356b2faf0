/-
Specification of what `scc_check_clustering` is to decide.
-/
import Verif.Spec.Clustering

namespace Scc

variable {F : Type}

/-- The labels in `b` are a clustering of `n` points into `k` clusters that meets the constraints in the options: labels are valid, the listed primary points are assigned,
and every cluster has enough points, in total and of each type. -/
structure MeetsConstraints (cfg : Cfg) (o : Options F) (P : List Nat) (lab c : Nat → Nat) (n k : Nat) (b : Buf Int) : Prop where
  labels : ValidLabels cfg b n k
  primary : o.primary ≠ none → ∀ v ∈ P, ¬ Unassigned cfg b v
  size : ∀ i, i < k → o.sizeConstraint ≤ (members b n i).length
  types : 2 ≤ o.numTypes → ∀ i, i < k → ∀ t, t < o.numTypes → c t ≤ (members b n i).countP fun v => lab v = t

/-- The preconditions of a call of `scc_check_clustering`: the object is live, its label array (unless the clustering is empty) has an entry (of any value) for each point, the option arrays are as the
options say, and the table of counts has a size that is representable. -/
structure CheckOk [FloatOps F] (cfg : Cfg) (o : Options F) (ob : ClObj) (P : List Nat) (lab c : Nat → Nat) (w : World) : Prop where
  config : cfg.Valid
  live : {ob.id} + ptrOwn ob.cl.label ≤ w.live
  filled : 0 < ob.cl.numClusters → ∀ lb, ob.cl.label = some lb → ∀ v, v < ob.cl.n → ∃ l, lb.buf.get v = some l
  arrays : OptionArrays ob.cl.n o P lab c
  room : 2 ≤ o.numTypes → o.numTypes * ob.cl.numClusters ≤ cfg.sizeMax

end Scc
