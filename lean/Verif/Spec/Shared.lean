/-
Histories of a client whose clustering objects may share label arrays that the client supplied. In contrast to Spec/History.lean the contents of these arrays are part of the state.

A call of the library is given at most one clustering object. So it suffices to show it the current contents of the array of that object, and to take over the contents that the call leaves behind:
afterwards every object that uses the array has these labels.
-/
import Verif.Spec.History

namespace Scc

variable {F : Type} [FloatOps F]

/-- The contents of the client's arrays, by block. -/
abbrev Arrays := Nat → Buf Int

/-- The array of the client that an object uses, if any. -/
def ClObj.array (ob : ClObj) : Option Nat := if ob.cl.external then ob.cl.label.map Blk.id else none

/-- An object when the arrays of the client have the given contents. -/
def ClObj.seen (arr : Arrays) (ob : ClObj) : ClObj :=
  if ob.cl.external then { ob with cl := { ob.cl with label := ob.cl.label.map fun lb => ⟨lb.id, arr lb.id⟩ } } else ob

/-- The contents of the arrays after a call that left the labels of this object behind. -/
def Arrays.after (arr : Arrays) (ob : ClObj) : Arrays :=
  match ob.array, ob.cl.label with
  | some a, some lb => Function.update arr a lb.buf
  | _, _ => arr

/-- The object through which an action may store labels. -/
def Op.target : Op F → Option Nat
  | .cluster i _ _ => some i
  | .hierarchical i _ _ _ _ => some i
  | .write i _ => some i
  | _ => none

/-- The same, as an object. -/
def Op.stores (objs : List ClObj) (op : Op F) : Option ClObj := op.target.bind fun i => objs[i]?

/-- The actions of the client: calls of the library, and storing other labels in an array. -/
inductive SharedOp (F : Type)
  | call (op : Op F)
  | store (a : Nat) (b : Buf Int)

/-- The arrays and the objects of the client. -/
structure Client where
  arr : Arrays
  objs : List ClObj

/-- The arrays after an action that left these objects behind. -/
def Client.arraysAfter (c : Client) (op : Op F) (objs : List ClObj) : Arrays :=
  match op.target with
  | some i => match objs[i]? with | some ob => c.arr.after ob | none => c.arr
  | none => c.arr

/-- Perform an action. -/
def SharedOp.run (cfg : Cfg) (c : Client) : SharedOp F → M (ErrorCode × Client)
  | .call op => do
    let r ← op.run cfg c.objs
    let arr := c.arraysAfter op r.2
    pure (r.1, ⟨arr, r.2.map (ClObj.seen arr)⟩)
  | .store a b =>
    let arr := Function.update c.arr a b
    pure (.ok, ⟨arr, c.objs.map (ClObj.seen arr)⟩)

/-- A label array that is given to a call has the contents that it has. -/
def Op.Current (arr : Arrays) : Op F → Prop
  | .initEmpty _ labels _ => ∀ b, labels = some b → b.buf = arr b.id
  | .initExisting _ _ labels _ _ => ∀ b, labels = some b → b.buf = arr b.id
  -- storing labels is the other kind of action
  | .write _ _ => False
  | _ => True

/-- What the client has to ensure: calls are made by the rules of Spec/History.lean, and in place of labels that an object has clusters for there are labels again. -/
def SharedOp.Allowed (cfg : Cfg) (U : Multiset Nat) (c : Client) (w : World) : SharedOp F → Prop
  | .call op => op.Allowed cfg U c.objs w ∧ op.Current c.arr
  | .store a b => a ∈ U ∧ b.len = (c.arr a).len ∧ ∀ ob ∈ c.objs, ob.array = some a → 0 < ob.cl.numClusters → Filled b ob.cl.n

/-- The states that a client can reach, starting without objects and with arrays of any contents. -/
inductive SharedReaches (F : Type) [FloatOps F] (cfg : Cfg) (U : Multiset Nat) (arr0 : Arrays) (w0 : World) : List ErrorCode → Client → World → Prop
  | start (h : w0.live = U) : SharedReaches F cfg U arr0 w0 [] ⟨arr0, []⟩ w0
  | step {codes : List ErrorCode} {c c' : Client} {w w' : World} {e : ErrorCode} (op : SharedOp F) (h : SharedReaches F cfg U arr0 w0 codes c w) (ha : op.Allowed cfg U c w)
      (hr : op.run cfg c w = some ((e, c'), w')) : SharedReaches F cfg U arr0 w0 (e :: codes) c' w'

end Scc
