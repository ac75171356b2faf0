/-
Specification for memory pressure: the same call in a process in which no allocation fails.
-/
import Verif.Model.Spi
import Verif.Model.Objects

namespace Scc

variable {F : Type}

/-- The same world, but no allocation fails. -/
def World.calm (w : World) : World := { w with fails := fun _ _ => false }

/-- Whatever allocations fail, `x` has the outcome that it has when none fails, or an outcome that satisfies `B`. -/
def Calm {α : Type} (x : M α) (B : α → Prop) : Prop := ∀ w r, x w = some r → x w.calm = some (r.1, r.2.calm) ∨ B r.1

/-- The back end reports failure, or does what it does when no allocation fails. -/
structure Spi.Steady (spi : Spi F) : Prop where
  distMatrix : ∀ len a out, Calm (spi.distMatrix len a out) (· = none)
  distRows : ∀ lenQ q lenC c out, Calm (spi.distRows lenQ q lenC c out) (· = none)
  maxInit : ∀ len a, Calm (spi.maxInit len a) (· = none)
  maxDist : ∀ o lenQ q outI outD, Calm (spi.maxDist o lenQ q outI outD) (· = none)
  maxClose : ∀ o, Calm (spi.maxClose o) (· = false)

/-- Two results of a clustering call with the same number of clusters, in which the labels are the same except that the first one may leave points unassigned that are assigned in the second. -/
def LeavesOut (cfg : Cfg) (n : Nat) (ob ob' : ClObj) : Prop :=
  ∃ b b', ob.cl.label = some b ∧ ob'.cl.label = some b' ∧ ob.cl.numClusters = ob'.cl.numClusters ∧
    ∀ v, v < n → ∃ x, b'.buf.get v = some x ∧ (b.buf.get v = some x ∨ b.buf.get v = some cfg.na)

/-! ### Two processes, one of which runs out of memory -/

/-- `x` is run in a process in which requests for memory may fail, except for those whose result is not checked, and `y` in one in which none fails. The outcome of `x` satisfies `B`, or the outcomes are
related by `R`. The processes remain of these kinds. -/
def Pair {α β : Type} (B : α → Prop) (R : α → β → Prop) (x : M α) (y : M β) : Prop :=
  ∀ w v r s, w.UncheckedOk → v.NoFail → x w = some r → y v = some s → B r.1 ∨ (R r.1 s.1 ∧ r.2.UncheckedOk ∧ s.2.NoFail)

/-- Index arrays with the same first entries. -/
structure SameEntries (len : Nat) (a a' : Option Arr) : Prop where
  null : a.isNone = a'.isNone
  entries : ∀ i, i < len → idxGet a i = idxGet a' i

/-- The back end reports failure, or gives the answers that it gives when no allocation fails. The answers depend on the entries of the arrays that it is given, not on the sizes of the blocks in which these
are stored; when `k` neighbours are asked for, the first `k` search points may be read without a check. `nn k` says which search objects give the same answers to such queries. -/
structure Spi.Firm (spi : Spi F) where
  nn : Nat → spi.NN → spi.NN → Prop
  nnInit : ∀ len k a a', SameEntries (max len k) a a' → Pair (fun _ => False) (fun o o' => o = none ∨ ∃ x y, o = some x ∧ o' = some y ∧ nn k x y) (spi.nnInit len a) (spi.nnInit len a')
  nnSearch : ∀ o o' lenQ q q' k rs r oq b, nn k o o' → q.map Arr.buf = q'.map Arr.buf → Pair (fun _ => False) (fun a a' => a = none ∨ a = a') (spi.nnSearch o lenQ q k rs r oq b) (spi.nnSearch o' lenQ q' k rs r oq b)
  nnClose : ∀ k o o', nn k o o' → Pair (fun _ => False) Eq (spi.nnClose o) (spi.nnClose o')
  distRows : ∀ lenQ q q' lenC c c' out, q.map Arr.buf = q'.map Arr.buf → c.map Arr.buf = c'.map Arr.buf → Pair (fun _ => False) (fun a a' => a = none ∨ a = a') (spi.distRows lenQ q lenC c out) (spi.distRows lenQ q' lenC c' out)
  /-- The queries that are reported as answered are among those that were asked. -/
  answered : ∀ o lenQ q k r b w res w', spi.nnSearch o lenQ (some q) k true r .same b w = some (some res, w') → ∀ j, j < res.numOk → ∀ p, res.outQ.get j = some p → ∃ i, i < lenQ ∧ q.buf.get i = some p
  /-- Without a radius, no more queries are answered than were asked. -/
  counted : ∀ o lenQ q k r oq b w res w', spi.nnSearch o lenQ q k false r oq b w = some (some res, w') → res.numOk ≤ lenQ

end Scc
