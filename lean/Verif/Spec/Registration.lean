/-
Histories of registrations of distance functions, and the arguments that `scc_init_data_set` is to accept.
-/
import Verif.Model.Objects

namespace Scc

/-- A call that changes the table of distance functions. -/
inductive RegOp (P : Type)
  | set (a : DistFunArgs P)
  | reset

/-- The table after a history of calls, most recent first. `imp` are the built-in functions, with which the table starts. -/
def registered {P : Type} (imp : DistFuns P) : List (RegOp P) → DistFuns P
  | [] => imp
  | .set a :: ops => (setDistFunctions a (registered imp ops)).2
  | .reset :: ops => (resetDistFunctions imp (registered imp ops)).2

/-- The three functions for nearest neighbour search. -/
def DistFuns.nn {P : Type} (t : DistFuns P) : P × P × P := (t.initNN, t.nnSearch, t.closeNN)

/-- The three functions for the search of the farthest points. -/
def DistFuns.max {P : Type} (t : DistFuns P) : P × P × P := (t.initMax, t.getMax, t.closeMax)

/-- All three arguments are given, or none. -/
def allOrNone {P : Type} (x y z : Option P) : Bool := (x.isSome && y.isSome && z.isSome) || (x.isNone && y.isNone && z.isNone)

/-- The arguments of `scc_init_data_set` are acceptable: sizes are positive and representable and there is a matrix that is long enough. -/
structure GoodData {F : Type} (cfg : Cfg) (n dims len : Nat) (data : Option (Buf F)) : Prop where
  points : 0 < n ∧ n ≤ cfg.pointMax ∧ n ≤ cfg.sizeMax - 1
  dimensions : 0 < dims ∧ dims ≤ 65535
  matrix : data ≠ none
  length : n * dims ≤ len

end Scc
