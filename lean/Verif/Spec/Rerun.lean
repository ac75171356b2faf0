/-
Specification vocabulary for running the same history of calls in two processes.
-/
import Verif.Spec.History
import Verif.Spec.Repeat

namespace Scc

variable {F : Type} [FloatOps F]

/-- Perform actions one after the other: the error codes, and the objects that the client holds afterwards. -/
def runOps (cfg : Cfg) : List (Op F) → List ClObj → M (List ErrorCode × List ClObj)
  | [], objs => pure ([], objs)
  | op :: ops, objs => do
    let r ← op.run cfg objs
    let q ← runOps cfg ops r.2
    pure (r.1 :: q.1, q.2)

/-- The same action when the client's own arrays have other addresses. -/
def Op.rename (ρ : Nat → Nat) : Op F → Op F
  | .initEmpty n labels hasOut => .initEmpty n (renamePtr ρ labels) hasOut
  | .initExisting n k labels deep hasOut => .initExisting n k (renamePtr ρ labels) deep hasOut
  | op => op

/-- The client's own arrays that an action uses. -/
def Op.blocks : Op F → List Nat
  | .initEmpty _ labels _ => ptrIds labels
  | .initExisting _ _ labels _ _ => ptrIds labels
  | _ => []

/-- The distance functions that an action uses, if any, are repeatable. -/
def Op.Repeatable : Op F → Prop
  | .cluster _ spi _ => spi.Repeatable
  | .hierarchical _ _ spi _ _ => spi.Repeatable
  | .stats _ spi _ => spi.Repeatable
  | _ => True

end Scc
