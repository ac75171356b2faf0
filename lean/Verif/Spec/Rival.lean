/-
Specification for property C85: a clustering that the library itself finds acceptable.
-/
import Verif.Model.Options
import Verif.Spec.Check
import Verif.Spec.Stats

namespace Scc

/-- The clustering `ob` of `n` points, made in any way: `scc_check_clustering` accepts it for the options `o`, and `scc_get_clustering_stats` reports `s` for it. The check does not ask for all points to
be assigned when no primary points are given, so this is required of the statistics. -/
structure Accepted {F : Type} [FloatOps F] (cfg : Cfg) (spi : Spi F) (o : Options F) (P : List Nat) (lab c : Nat → Nat) (n : Nat) (ob : ClObj) (s : Stats F) : Prop where
  points : ob.cl.n = n
  check : ∃ w w', CheckOk cfg o ob P lab c w ∧ checkClustering cfg (some ob) o true w = some ((.ok, some true), w')
  stats : ∃ w w', StatsOk cfg ob w ∧ getStats cfg spi (some ob) true w = some ((.ok, some s), w')
  covers : o.primary = none → s.numAssigned = s.numPoints

end Scc
