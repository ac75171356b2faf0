/-
Specification vocabulary for repeating a call: when two states of the process, and two arguments or results, are the same apart from the names of heap blocks.
-/
import Verif.Model.Stats
import Verif.Model.Hierarchical

namespace Scc

/-- Two states of a process from which the same call is made: the values of the allocation counter, the blocks that correspond to each other (those of the arguments of the call), the error
records and which requests for memory fail. `exact` says that no process frees blocks that the other keeps, and `calm` that all requests for memory succeed. -/
structure Twin where
  clock1 : Nat
  clock2 : Nat
  link : Nat → Nat → Prop
  err1 : ErrInfo
  err2 : ErrInfo
  fails1 : Nat → Bool → Bool
  fails2 : Nat → Bool → Bool
  exact : Prop
  calm : Prop

/-- Blocks correspond if they do so from the start, or if they come from the same allocation request since. -/
def Twin.Names (T : Twin) (i j : Nat) : Prop := T.link i j ∨ ∃ t, i = T.clock1 + t ∧ j = T.clock2 + t

/-- The two processes after equally many allocation requests: a block that is live in the first process is live in the second (which may have forgotten to free some, unless
`exact`), requests that are still to come have the same outcome, and the error records are still the old ones or are the same. -/
structure Twin.Worlds (T : Twin) (w v : World) : Prop where
  clock : ∃ t, w.clock = T.clock1 + t ∧ v.clock = T.clock2 + t
  fails : ∀ t c, w.fails (T.clock1 + t) c = v.fails (T.clock2 + t) c
  below1 : ∀ i ∈ w.live, i < w.clock
  below2 : ∀ j ∈ v.live, j < v.clock
  nodup1 : w.live.Nodup
  nodup2 : v.live.Nodup
  old1 : ∀ i j, T.link i j → i < T.clock1 ∧ j < T.clock2
  inj1 : ∀ i j j', T.link i j → T.link i j' → j = j'
  inj2 : ∀ i i' j, T.link i j → T.link i' j → i = i'
  live : ∀ i j, T.Names i j → w.live.count i ≤ v.live.count j ∧ (T.exact → v.live.count j ≤ w.live.count i)
  err : w.err = T.err1 ∧ v.err = T.err2 ∨ w.err = v.err
  calm : T.calm → w.NoFail
  kept : w.fails = T.fails1 ∧ v.fails = T.fails2

/-- Heap blocks: corresponding names, the same contents. -/
inductive BlkAlike {α : Type} (T : Twin) : Blk α → Blk α → Prop
  | mk {i j : Nat} {b : Buf α} (h : T.Names i j) : BlkAlike T ⟨i, b⟩ ⟨j, b⟩

/-- Pointers to heap blocks: both NULL, or to blocks that are alike. -/
inductive PtrAlike {α : Type} (T : Twin) : Option (Blk α) → Option (Blk α) → Prop
  | null : PtrAlike T none none
  | ptr {i j : Nat} {b : Buf α} (h : T.Names i j) : PtrAlike T (some ⟨i, b⟩) (some ⟨j, b⟩)

/-- Lists of names of blocks. -/
abbrev IdsAlike (T : Twin) : List Nat → List Nat → Prop := List.Forall₂ T.Names

/-- Index arrays. -/
inductive ArrAlike (T : Twin) : Option Arr → Option Arr → Prop
  | null : ArrAlike T none none
  | arr {l l' : List Nat} {b : Buf Nat} (h : IdsAlike T l l') : ArrAlike T (some ⟨l, b⟩) (some ⟨l', b⟩)

/-- Optional results. -/
inductive OptAlike {α β : Type} (R : α → β → Prop) : Option α → Option β → Prop
  | none : OptAlike R none none
  | some {a : α} {b : β} (h : R a b) : OptAlike R (some a) (some b)

/-- Results or error codes. -/
inductive ExcAlike {α β : Type} (R : α → β → Prop) : Except ErrorCode α → Except ErrorCode β → Prop
  | error {e : ErrorCode} : ExcAlike R (.error e) (.error e)
  | ok {a : α} {b : β} (h : R a b) : ExcAlike R (.ok a) (.ok b)

/-- Clusterings: the same contents. -/
inductive ClusteringAlike (T : Twin) : Clustering → Clustering → Prop
  | mk {v n k : Nat} {l l' : Option (Blk Int)} {e : Bool} (h : PtrAlike T l l') : ClusteringAlike T ⟨v, n, k, l, e⟩ ⟨v, n, k, l', e⟩

/-- Clustering objects. -/
inductive ClObjAlike (T : Twin) : ClObj → ClObj → Prop
  | mk {i j : Nat} {c c' : Clustering} (h : T.Names i j) (hc : ClusteringAlike T c c') : ClObjAlike T ⟨i, c⟩ ⟨j, c'⟩

/-- `x` and `y` do the same: whenever `x` has an outcome, `y` has one that is alike. -/
def Twin.Same {α β : Type} (T : Twin) (R : α → β → Prop) (x : M α) (y : M β) : Prop :=
  ∀ w v a w', T.Worlds w v → x w = some (a, w') → ∃ b v', y v = some (b, v') ∧ T.Worlds w' v' ∧ R a b

variable {F : Type}

/-- Two back ends that give the same answers in both processes. `nn` and `md` say when search objects correspond. -/
structure SpiAlike (T : Twin) (s t : Spi F) where
  nn : s.NN → t.NN → Prop
  md : s.MD → t.MD → Prop
  valid : s.valid = t.valid
  numPoints : s.numPoints = t.numPoints
  distMatrix : ∀ (len : Nat) (p p' : Option Arr) (out : Buf F), ArrAlike T p p' → T.Same Eq (s.distMatrix len p out) (t.distMatrix len p' out)
  distRows : ∀ (lenQ : Nat) (q q' : Option Arr) (lenC : Nat) (c c' : Option Arr) (out : Buf F), ArrAlike T q q' → ArrAlike T c c' →
    T.Same Eq (s.distRows lenQ q lenC c out) (t.distRows lenQ q' lenC c' out)
  maxInit : ∀ (len : Nat) (a a' : Option Arr), ArrAlike T a a' → T.Same (OptAlike md) (s.maxInit len a) (t.maxInit len a')
  maxDist : ∀ (o : s.MD) (o' : t.MD) (lenQ : Nat) (q q' : Option Arr) (outI : Buf Nat) (outD : Buf F), md o o' → ArrAlike T q q' →
    T.Same Eq (s.maxDist o lenQ q outI outD) (t.maxDist o' lenQ q' outI outD)
  maxClose : ∀ (o : s.MD) (o' : t.MD), md o o' → T.Same Eq (s.maxClose o) (t.maxClose o')
  nnInit : ∀ (len : Nat) (a a' : Option Arr), ArrAlike T a a' → T.Same (OptAlike nn) (s.nnInit len a) (t.nnInit len a')
  nnSearch : ∀ (o : s.NN) (o' : t.NN) (lenQ : Nat) (q q' : Option Arr) (k : Nat) (rs : Bool) (r : F) (oq : OutQ) (b : Buf Nat), nn o o' → ArrAlike T q q' →
    T.Same Eq (s.nnSearch o lenQ q k rs r oq b) (t.nnSearch o' lenQ q' k rs r oq b)
  nnClose : ∀ (o : s.NN) (o' : t.NN), nn o o' → T.Same Eq (s.nnClose o) (t.nnClose o')

/-- The back end gives the same answers whenever it is asked the same: what it does depends on the contents of its arguments and on which requests for memory fail, not on the names of blocks or on earlier
calls. -/
def Spi.Repeatable (spi : Spi F) : Prop := ∀ T : Twin, Nonempty (SpiAlike T spi spi)

/-! ### Two processes -/

/-- The blocks of a clustering object: the structure and the label array. -/
def ClObj.blocks (ob : ClObj) : List Nat := ob.id :: ptrIds ob.cl.label

/-- A pointer when blocks have other addresses. -/
def renamePtr {α : Type} (ρ : Nat → Nat) (p : Option (Blk α)) : Option (Blk α) := p.map fun b => ⟨ρ b.id, b.buf⟩

/-- The same clustering object when its blocks have other addresses. All contents are the same. -/
def ClObj.rename (ρ : Nat → Nat) (ob : ClObj) : ClObj := ⟨ρ ob.id, { ob.cl with label := renamePtr ρ ob.cl.label }⟩

/-- What a client can see of a clustering object: everything but the addresses. -/
def ClObj.contents (ob : ClObj) : Nat × Nat × Nat × Option (Buf Int) × Bool := (ob.cl.version, ob.cl.n, ob.cl.numClusters, ob.cl.label.map Blk.buf, ob.cl.external)

/-- The heap of a process: blocks are distinct, and were obtained by earlier requests. -/
structure World.Ordinary (w : World) : Prop where
  distinct : w.live.Nodup
  below : ∀ i ∈ w.live, i < w.clock

/-- The requests for memory that are still to come fail or succeed alike in two processes. -/
def SameFailures (w v : World) : Prop := ∀ t c, w.fails (w.clock + t) c = v.fails (v.clock + t) c

/-- Two processes, with different heaps, in which the blocks `B` of the one correspond to the blocks `ρ B` of the other, and in which the requests for memory that are still to come fail or succeed alike. Apart
from `B` the heaps need not have anything in common. -/
structure SameProcess (ρ : Nat → Nat) (B : Set Nat) (w v : World) : Prop where
  first : w.Ordinary
  second : v.Ordinary
  fails : SameFailures w v
  live : ∀ i ∈ B, i ∈ w.live ∧ ρ i ∈ v.live
  inj : ∀ i ∈ B, ∀ j ∈ B, ρ i = ρ j → i = j

/-- After the same calls in two such processes: old blocks have the addresses they had, the blocks that exist now correspond again, none is left in the second process that was freed in the first, equally many requests for memory were made, and the error records are the
same or both as before. -/
structure SameAfter (ρ : Nat → Nat) (B : Set Nat) (w v : World) (ρ' : Nat → Nat) (w' v' : World) : Prop where
  extends_ : ∀ i ∈ B, ρ' i = ρ i
  process : SameProcess ρ' {i | i ∈ w'.live ∧ (i ∈ B ∨ w.clock ≤ i)} w' v'
  noMore : ∀ j ∈ v'.live, (∃ i ∈ B, ρ i = j) ∨ v.clock ≤ j → ∃ i ∈ w'.live, ρ' i = j
  requests : w.clock ≤ w'.clock ∧ v'.clock = v.clock + (w'.clock - w.clock)
  err : w'.err = w.err ∧ v'.err = v.err ∨ w'.err = v'.err

end Scc
