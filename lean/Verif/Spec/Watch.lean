/-
Back ends whose failure reports are watched, for property C39.
-/
import Verif.Model.NngClustering

namespace Scc

variable {F : Type}

/-- Which failure reports of a back end are watched: those of starting a search and of computing distances, those of searching (for nearest neighbours or for the point farthest away), and those of
closing a search. -/
structure Watch where
  start : Bool
  search : Bool
  close : Bool

/-- A call that reports failure is stopped (has no outcome) if `watched`. -/
def stopAtNone {α : Type} (watched : Bool) (x : M (Option α)) : M (Option α) := fun w =>
  match x w with
  | some (none, w') => if watched then none else some (none, w')
  | r => r

/-- The same for functions that return a Boolean. -/
def stopAtFalse (watched : Bool) (x : M Bool) : M Bool := fun w =>
  match x w with
  | some (false, w') => if watched then none else some (false, w')
  | r => r

/-- The back end that stops the program as soon as one of the watched functions reports failure. As long as this does not happen it is the same as the given back end. So a run with `spi.watched v`
has an outcome if and only if the run with `spi` has one and no watched function reports failure in it. -/
def Spi.watched (spi : Spi F) (v : Watch) : Spi F :=
  { spi with
    distMatrix := fun len a out => stopAtNone v.start (spi.distMatrix len a out)
    maxInit := fun len a => stopAtNone v.start (spi.maxInit len a)
    maxDist := fun o lenQ q outI outD => stopAtNone v.search (spi.maxDist o lenQ q outI outD)
    maxClose := fun o => stopAtFalse v.close (spi.maxClose o)
    distRows := fun lenQ q lenC c out => stopAtNone v.start (spi.distRows lenQ q lenC c out)
    nnInit := fun len a => stopAtNone v.start (spi.nnInit len a)
    nnSearch := fun o lenQ q k rs r oq nn => stopAtNone v.search (spi.nnSearch o lenQ q k rs r oq nn)
    nnClose := fun o => stopAtFalse v.close (spi.nnClose o) }

end Scc
