/-
Specification of the radius that is estimated from the seeds.
-/
import Verif.Spec.Seeds
import Verif.Spec.Float

namespace Scc

variable {F : Type} [FloatOps F]

/-- Mean distance from `s` to its out-neighbours. -/
def meanDist (dist : Nat → Nat → F) (rows : Nat → List Nat) (s : Nat) : F :=
  FloatOps.div ((rows s).foldl (fun acc x => FloatOps.add acc (dist s x)) FloatOps.zero) (FloatOps.ofNat (rows s).length)

/-- All seeds when there are at most 1000 of them, otherwise every `(count / 1000)`-th. -/
def sampledSeeds (seeds : List Nat) : List Nat :=
  if seeds.length ≤ 1000 then seeds
  else ((List.range seeds.length).filter fun i => (seeds.length / 1000) ∣ i).filterMap fun i => seeds[i]?

/-- The mean over the sampled seeds of the mean distance to the out-neighbours. -/
def seedEstimate (dist : Nat → Nat → F) (rows : Nat → List Nat) (seeds : List Nat) : F :=
  FloatOps.div ((sampledSeeds seeds).foldl (fun acc s => FloatOps.add acc (meanDist dist rows s)) FloatOps.zero) (FloatOps.ofNat (sampledSeeds seeds).length)

end Scc
