/-
Specification of clustering in batches: the sequential algorithm that considers one point at a time.
-/
import Verif.Spec.Nng

namespace Scc

variable {F : Type}

/-- State of the sequential algorithm: the clusters made around seeds, in order, and the clusters that other points joined for the time being. -/
structure SeqState where
  clusters : List (List Nat)
  joined : Nat → Option Nat

/-- Before any point is considered. -/
def SeqState.init : SeqState := ⟨[], fun _ => none⟩

/-- The point belongs to a cluster made around a seed. -/
def SeqState.Captured (st : SeqState) (x : Nat) : Prop := ∃ c ∈ st.clusters, x ∈ c

instance (st : SeqState) (x : Nat) : Decidable (st.Captured x) := by unfold SeqState.Captured; infer_instance

/-- The cluster of a point: the one made around a seed it belongs to, otherwise the one it joined. -/
def SeqState.label (st : SeqState) (v : Nat) : Option Nat := (st.clusters.findIdx? fun c => decide (v ∈ c)).or (st.joined v)

/-- The cluster of a seed `q`: the seed and its neighbours in the answer `a`. -/
def seedCluster (q : Nat) (a : List Nat) : List Nat := q :: nbrs q a

/-- Consider point `e.1` with the answer `e.2` to the query for its nearest points. If it is in no cluster around a seed and nor are the points of the answer, it becomes a seed. If some
point of the answer is in such a cluster, `e.1` joins the cluster of the first one, unless such points are ignored. -/
def SeqState.consider (ignore : Bool) (st : SeqState) (e : Nat × Option (List Nat)) : SeqState :=
  if st.Captured e.1 then st
  else
    match e.2 with
    | none => st
    | some a =>
      match a.find? fun x => decide (st.Captured x) with
      | none => { st with clusters := st.clusters ++ [seedCluster e.1 a] }
      | some x => if ignore then st else { st with joined := fun v => if v = e.1 then st.label x else st.joined v }

/-- Consider several points in turn. -/
def seqRun (ignore : Bool) (evs : List (Nat × Option (List Nat))) : SeqState := evs.foldl (SeqState.consider ignore) SeqState.init

/-- The points that were considered with acceptable answers: those in no cluster when it was their turn. (The answers for other points do not matter.) -/
def GoodAnswers (ignore : Bool) (C : Nat → Option (List Nat) → Prop) (evs : List (Nat × Option (List Nat))) : Prop :=
  ∀ pre e post, evs = pre ++ e :: post → (seqRun ignore pre).Captured e.1 ∨ C e.1 e.2

/-- The number of points per batch for `n` points. -/
def batchLen (o : Options F) (n : Nat) : Nat := if o.batchSize = 0 then n else min o.batchSize n

/-- The number of neighbours of a batch fits in 32 bits, in which the code computes it. -/
def BatchFits (o : Options F) (n : Nat) : Prop := o.sizeConstraint * batchLen o n < 2 ^ 32

/-- Acceptable answers to a query for the `S` nearest of `n` points. -/
def AnswerOk (A : Criterion F) (n S : Nat) (R : Option F) (q : Nat) (a : Option (List Nat)) : Prop := A (List.range n) S R q a ∧ WellFormed (List.range n) S R q a

/-- The answers that meet the criterion `A`, with the neighbours in the order in which they are stored. -/
def Stored (cfg : Cfg) (A : Criterion F) : Criterion F := fun set k R q a => ∃ a₀, A set k R q a₀ ∧ a = a₀.map (stored cfg)

/-- The answers used by a run in batches: the primary points `P` were considered in ascending order. -/
structure BatchRun (cfg : Cfg) (A : Criterion F) (n : Nat) (o : Options F) (P : List Nat) (evs : List (Nat × Option (List Nat))) : Prop where
  order : evs.map Prod.fst = P
  good : GoodAnswers (decide (o.primaryMethod = .ignore)) (AnswerOk (Stored cfg A) n o.sizeConstraint (seedLimit o)) evs

/-- The state of the sequential algorithm after the answers `evs`. -/
def batchResult (o : Options F) (evs : List (Nat × Option (List Nat))) : SeqState := seqRun (decide (o.primaryMethod = .ignore)) evs

end Scc
