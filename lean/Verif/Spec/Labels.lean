/-
Specification vocabulary for cluster labels and the stages in which `scc_sc_clustering` assigns them.
-/
import Verif.Spec.Seeds
import Verif.Spec.Spi
import Verif.Model.Options

namespace Scc

/-- A label as stored in the label array; `none` is a point without cluster. -/
def encLabel (cfg : Cfg) : Option Nat → Int
  | none => cfg.na
  | some c => (c : Int)

/-- The label array `b` of `n` points holds the labels `L`. -/
def LabelsAre (cfg : Cfg) (n : Nat) (b : Buf Int) (L : Nat → Option Nat) : Prop := ∀ v, v < n → b.get v = some (encLabel cfg (L v))

/-- The points that have a label, in order. -/
def labelled (n : Nat) (L : Nat → Option Nat) : List Nat := (List.range n).filter fun v => (L v).isSome

/-- First stage: the `i`-th seed and its out-neighbours get label `i`. -/
def seedLab (rows : Nat → List Nat) (seeds : List Nat) (v : Nat) : Option Nat := seeds.findIdx? fun s => decide (v ∈ closedNbr rows s)

/-- Stage by digraph: a point without label gets the label of its first out-neighbour with a label. -/
def nngLab (rows : Nat → List Nat) (L : Nat → Option Nat) (v : Nat) : Option Nat :=
  match L v with
  | some c => some c
  | none => ((rows v).find? fun a => (L a).isSome).bind L

/-- Stage by search: a point without label gets the label of the nearest neighbour that the search found for it. -/
def searchLab (ans : Nat → Option (List Nat)) (L : Nat → Option Nat) (v : Nat) : Option Nat :=
  match L v with
  | some c => some c
  | none => ((ans v).bind List.head?).bind L

/-- Acceptable answers to all queries in `Q`, as a function that is `none` on other points. -/
structure Answers {F : Type} (A : Criterion F) (L : List Nat) (k : Nat) (radius : Option F) (Q : List Nat) (ans : Nat → Option (List Nat)) : Prop where
  crit : ∀ q ∈ Q, A L k radius q (ans q)
  none_of : ∀ v, v ∉ Q → ans v = none
  all : radius = none → ∀ q ∈ Q, ans q ≠ none
  row : ∀ q l, ans q = some l → l.length = k ∧ l.Nodup ∧ l ⊆ L

/-- A stage in which the points of `P` without label are assigned by search: among the points labelled in the first stage (`base`) or among the seeds. Other methods change nothing. -/
def SearchStage {F : Type} (A : Criterion F) (n : Nat) (um : UnassignedMethod) (base seeds : List Nat) (R : Option F) (P : List Nat) (L L' : Nat → Option Nat) : Prop :=
  match um with
  | .closestAssigned => ∃ ans, Answers A base 1 R (P.filter fun v => (L v).isNone) ans ∧ ∀ v, v < n → L' v = searchLab ans L v
  | .closestSeed => ∃ ans, Answers A seeds 1 R (P.filter fun v => (L v).isNone) ans ∧ ∀ v, v < n → L' v = searchLab ans L v
  | _ => ∀ v, v < n → L' v = L v

/-- Is the digraph used to assign points after the seeds? -/
def UsesNng (ordered : Bool) (um : UnassignedMethod) : Prop := um = .anyNeighbor ∨ ordered = true ∧ um = .closestAssigned

instance (ordered : Bool) (um : UnassignedMethod) : Decidable (UsesNng ordered um) := by unfold UsesNng; infer_instance

/-- All stages. `rows` is the digraph, `P` are the primary points, `um` and `R` apply to them, `um2` and `R2` to all points that are left. `lost` is the
possibility that the last search fails, which goes unnoticed. -/
structure Staged {F : Type} (A : Criterion F) (n : Nat) (rows : Nat → List Nat) (seeds : List Nat) (ordered : Bool) (um : UnassignedMethod) (R : Option F) (P : List Nat)
    (um2 : UnassignedMethod) (R2 : Option F) (lost : Prop) (L2 L3 L : Nat → Option Nat) : Prop where
  nng : ∀ v, v < n → L2 v = if UsesNng ordered um then nngLab rows (seedLab rows seeds) v else seedLab rows seeds v
  first : SearchStage A n um (labelled n (seedLab rows seeds)) seeds R P L2 L3
  second : SearchStage A n um2 (labelled n (seedLab rows seeds)) seeds R2 (List.range n) L3 L ∨ lost ∧ ∀ v, v < n → L v = L3 v

end Scc
