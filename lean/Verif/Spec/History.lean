/-
Histories of API calls of a client that holds clustering objects, and the rules the client has to follow.
-/
import Verif.Spec.Check
import Verif.Spec.Batches
import Verif.Spec.Hierarchical
import Verif.Spec.Stats
import Verif.Model.NngClustering

namespace Scc

variable {F : Type} [FloatOps F]

/-- One action of the client. Objects are referred to by their position in the list of objects that the client holds; a position that does not exist is a NULL pointer. -/
inductive Op (F : Type)
  | initEmpty (n : Nat) (labels : Option (Blk Int)) (hasOut : Bool)
  | initExisting (n k : Nat) (labels : Option (Blk Int)) (deep hasOut : Bool)
  | copy (i : Nat) (hasOut : Bool)
  | free (i : Nat)
  | info (i : Nat)
  | getLabels (i len : Nat) (out : Option (Buf Int))
  | check (i : Nat) (o : Options F) (hasOut : Bool)
  | cluster (i : Nat) (spi : Spi F) (o : Options F)
  | hierarchical (i : Nat) (hi : HiEnv F) (spi : Spi F) (S : Nat) (batch : Bool)
  | stats (i : Nat) (spi : Spi F) (hasOut : Bool)
  /-- The client stores other labels in an array that it supplied. -/
  | write (i : Nat) (b : Buf Int)

/-- The object with new labels in the array that the user supplied. -/
def ClObj.relabel (ob : ClObj) (b : Buf Int) : ClObj := { ob with cl := { ob.cl with label := ob.cl.label.map fun lb => ⟨lb.id, b⟩ } }

/-- Put the object that a call left behind in place of the old one. -/
def putBack (objs : List ClObj) (i : Nat) : Option ClObj → List ClObj
  | none => objs
  | some ob => objs.set i ob

/-- Perform an action: the error code and the objects that the client holds afterwards. -/
def Op.run (cfg : Cfg) (objs : List ClObj) : Op F → M (ErrorCode × List ClObj)
  | .initEmpty n labels hasOut => do let r ← Scc.initEmpty cfg n labels hasOut; pure (r.1, objs ++ r.2.toList)
  | .initExisting n k labels deep hasOut => do let r ← Scc.initExisting cfg n k labels deep hasOut; pure (r.1, objs ++ r.2.toList)
  | .copy i hasOut => do let r ← copyClustering cfg objs[i]? hasOut; pure (r.1, objs ++ r.2.toList)
  | .free i => do freeClustering objs[i]?; pure (.ok, objs.eraseIdx i)
  | .info i => do let r ← getInfo cfg objs[i]?; pure (r.1, objs)
  | .getLabels i len out => do let r ← Scc.getLabels cfg objs[i]? len out; pure (r.1, objs)
  | .check i o hasOut => do let r ← checkClustering cfg objs[i]? o hasOut; pure (r.1, objs)
  | .cluster i spi o => do let r ← scClustering cfg spi o objs[i]?; pure (r.1, putBack objs i r.2)
  | .hierarchical i hi spi S batch => do let r ← Scc.hierarchical cfg hi spi S batch objs[i]?; pure (r.1, putBack objs i r.2)
  | .stats i spi hasOut => do let r ← getStats cfg spi objs[i]? hasOut; pure (r.1, objs)
  | .write i b => pure (.ok, putBack objs i (objs[i]?.map fun ob => ob.relabel b))

/-- The object that an action frees or changes, if any. -/
def Op.changes (objs : List ClObj) : Op F → Option ClObj
  | .free i => objs[i]?
  | .cluster i _ _ => objs[i]?
  | .hierarchical i _ _ _ _ => objs[i]?
  | .write i _ => objs[i]?
  | _ => none

/-- A call of `scc_sc_clustering`. -/
def Op.isCluster : Op F → Bool
  | .cluster _ _ _ => true
  | _ => false

/-- The first `n` entries of a label array have been written. -/
def Filled (b : Buf Int) (n : Nat) : Prop := ∀ v, v < n → ∃ l, b.get v = some l

/-- What the client has to ensure. `U` are the blocks of the client's own arrays. -/
def Op.Allowed (cfg : Cfg) (U : Multiset Nat) (objs : List ClObj) (w : World) : Op F → Prop
  -- supplied label arrays belong to the client and are large enough
  | .initEmpty n labels _ => ∀ b, labels = some b → b.id ∈ U ∧ n ≤ b.buf.len
  | .initExisting n _ labels _ _ => ∀ b, labels = some b → b.id ∈ U ∧ n ≤ b.buf.len ∧ Filled b.buf n
  | .copy _ _ => True
  | .free _ => True
  | .info _ => True
  | .getLabels _ len out => ∀ b, out = some b → len ≤ b.len
  -- option arrays are as the options say
  | .check i o _ => ∀ ob, objs[i]? = some ob → (2 ≤ o.numTypes → o.numTypes * ob.cl.numClusters ≤ cfg.sizeMax) ∧ ∃ P lab c, OptionArrays ob.cl.n o P lab c
  -- the distance functions work as documented; the calls for which C38 and C14 fail are left out
  | .cluster i spi o => ∀ ob, objs[i]? = some ob → w.UncheckedOk ∧ (∃ A dist mayRefuse, Nonempty (SpiOk spi ob.cl.n A dist mayRefuse)) ∧
      (∃ P lab c, OptionArrays ob.cl.n o P lab c ∧ (ValidOptions o ob.cl.n P → WithinLimits cfg ob.cl.n o c)) ∧
      match o.seedMethod with
      | .method m => m.IsExclusion → w.NoFail ∧ ¬ TooBig cfg ob.cl.n o.sizeConstraint m
      | .batches => BatchFits o ob.cl.n
      | .unknown => True
  -- the distance functions work as documented; the calls for which C16 and C17 fail are left out
  | .hierarchical i hi spi S _ => ∀ ob, objs[i]? = some ob → hi.Ok ∧ (∃ dist mayRefuse, DistLaws ob.cl.n dist ∧ Nonempty (MetricOk spi ob.cl.n dist mayRefuse) ∧
        (ob.cl.numClusters = 0 → Spread S dist (List.range ob.cl.n))) ∧
      (2 * S < 2 ^ 32 ∧ 2 * ob.cl.n ≤ cfg.sizeMax ∧ ob.cl.numClusters + 1000 < 2 ^ 64) ∧
      (ob.cl.numClusters ≠ 0 → ∀ lb, ob.cl.label = some lb → ValidLabels cfg lb.buf ob.cl.n ob.cl.numClusters ∧ FirstFits lb.buf ob.cl.n ob.cl.numClusters S)
  -- the distance functions work as documented, the labels are valid, and sizes can be represented
  | .stats i spi _ => ∀ ob, objs[i]? = some ob → (∃ dist mayRefuse, MatrixOk spi ob.cl.n dist mayRefuse) ∧
      (0 < ob.cl.numClusters → ∀ lb, ob.cl.label = some lb → ValidLabels cfg lb.buf ob.cl.n ob.cl.numClusters) ∧
      ob.cl.n * (ob.cl.n - 1) ≤ cfg.sizeMax ∧ ob.cl.n * (ob.cl.n - 1) < 2 ^ 64
  -- only supplied arrays are written, within bounds
  | .write i b => ∀ ob, objs[i]? = some ob → ob.cl.external = true ∧ ∀ lb, ob.cl.label = some lb → b.len = lb.buf.len ∧ Filled b ob.cl.n

/-- The states that a client can reach, starting without objects. `codes` are the error codes of the calls, most recent first. -/
inductive Reaches (F : Type) [FloatOps F] (cfg : Cfg) (U : Multiset Nat) (w0 : World) : List ErrorCode → List ClObj → World → Prop
  | start (h : w0.live = U) : Reaches F cfg U w0 [] [] w0
  | step {codes : List ErrorCode} {objs objs' : List ClObj} {w w' : World} {e : ErrorCode} (op : Op F) (h : Reaches F cfg U w0 codes objs w) (ha : op.Allowed cfg U objs w)
      (hr : op.run cfg objs w = some ((e, objs'), w')) : Reaches F cfg U w0 (e :: codes) objs' w'

/-- The blocks that belong to a clustering object. Label arrays supplied by the user do not. -/
def ClObj.own (ob : ClObj) : Multiset Nat := {ob.id} + if ob.cl.external then 0 else ptrOwn ob.cl.label

/-- The blocks that belong to the objects. -/
def owned (objs : List ClObj) : Multiset Nat := (objs.map ClObj.own).sum

/-- Free all objects. -/
def freeAll : List ClObj → M Unit
  | [] => pure ()
  | ob :: objs => do freeClustering (some ob); freeAll objs

end Scc
