/-
Runs with different back ends: if one back end does what another does whenever the first has an outcome, then so do the calls of the library. Used to exchange the built-in distance functions
with and without assertions.
-/
import Verif.Proofs.AssertCall
import Verif.Proofs.AssertHi
import Verif.Model.AssertObjects

namespace Scc

variable {F : Type} [FloatOps F]

/-- `y` does what `x` does, when `x` has an outcome. -/
structure MLe {α : Type} (x y : M α) : Prop where
  le : ∀ w r, x w = some r → y w = some r

theorem MLe.refl {α : Type} (x : M α) : MLe x x := ⟨fun _ _ h => h⟩

theorem MLe.bind {α β : Type} {x y : M α} {f g : α → M β} (h : MLe x y) (hf : ∀ a, MLe (f a) (g a)) : MLe (x >>= f) (y >>= g) := by
  refine ⟨fun w r hr => ?_⟩
  change (x w).bind (fun p => f p.1 p.2) = some r at hr
  show (y w).bind (fun p => g p.1 p.2) = some r
  rw [Option.bind_eq_some_iff] at hr ⊢
  obtain ⟨p, h1, h2⟩ := hr
  exact ⟨p, h.le w p h1, (hf _).le _ _ h2⟩

theorem MLe.next {α β : Type} {x : M α} {f g : α → M β} (hf : ∀ a, MLe (f a) (g a)) : MLe (x >>= f) (x >>= g) := MLe.bind (MLe.refl x) hf

theorem MLe.first {α β : Type} {x y : M α} {f : α → M β} (h : MLe x y) : MLe (x >>= f) (y >>= f) := MLe.bind h fun _ => MLe.refl _

theorem MLe.asrt {β : Type} {p : Prop} [Decidable p] {f g : Unit → M β} (hf : p → MLe (f ()) (g ())) : MLe (asrtM p >>= f) (asrtM p >>= g) := by
  by_cases h : p
  · rw [asrtM_bind h, asrtM_bind h]; exact hf h
  · refine ⟨fun w r hr => ?_⟩
    exfalso
    change (asrtM p w).bind _ = some r at hr
    have : asrtM p w = none := by
      unfold asrtM useK Scc.asrt
      simp [h]
    rw [this] at hr
    exact absurd hr (by simp)

theorem MLe.ite {α : Type} {p : Prop} [Decidable p] {x y x' y' : M α} (h1 : p → MLe x x') (h2 : ¬ p → MLe y y') : MLe (if p then x else y) (if p then x' else y') := by
  by_cases h : p
  · rw [if_pos h, if_pos h]; exact h1 h
  · rw [if_neg h, if_neg h]; exact h2 h

theorem MLe.foldBM {α σ ρ : Type} {f g : σ → α → M (Ctl σ ρ)} (h : ∀ s a, MLe (f s a) (g s a)) : ∀ (l : List α) (s : σ), MLe (Scc.foldBM f s l) (Scc.foldBM g s l)
  | [], s => MLe.refl _
  | a :: l, s => by
    unfold Scc.foldBM
    refine MLe.bind (h s a) fun c => ?_
    cases c with
    | next s' => exact MLe.foldBM h l s'
    | stop r => exact MLe.refl _

/-- Other functions for a back end, for the same kinds of objects. -/
structure Repl (spi : Spi F) where
  distMatrix : Nat → Option Arr → Buf F → M (Option (Buf F))
  distRows : Nat → Option Arr → Nat → Option Arr → Buf F → M (Option (Buf F))
  maxInit : Nat → Option Arr → M (Option spi.MD)
  maxDist : spi.MD → Nat → Option Arr → Buf Nat → Buf F → M (Option (Buf Nat × Buf F))
  nnInit : Nat → Option Arr → M (Option spi.NN)
  nnSearch : spi.NN → Nat → Option Arr → Nat → Bool → F → OutQ → Buf Nat → M (Option NNOut)

/-- The back end with these functions. -/
@[reducible] def Repl.spi {spi : Spi F} (r : Repl spi) : Spi F where
  NN := spi.NN
  MD := spi.MD
  valid := spi.valid
  numPoints := spi.numPoints
  distMatrix := r.distMatrix
  distRows := r.distRows
  maxInit := r.maxInit
  maxDist := r.maxDist
  maxClose := spi.maxClose
  nnInit := r.nnInit
  nnSearch := r.nnSearch
  nnClose := spi.nnClose

/-- The functions do what those of `spi` do. A search with a radius is of interest only if the radius is positive and there is an array for the answered queries. -/
structure Repl.Above {spi : Spi F} (r : Repl spi) : Prop where
  distMatrix : ∀ len points out, MLe (spi.distMatrix len points out) (r.distMatrix len points out)
  distRows : ∀ lenQ queries lenC cols out, MLe (spi.distRows lenQ queries lenC cols out) (r.distRows lenQ queries lenC cols out)
  maxInit : ∀ len arr, MLe (spi.maxInit len arr) (r.maxInit len arr)
  maxDist : ∀ o lenQ queries outI outD, MLe (spi.maxDist o lenQ queries outI outD) (r.maxDist o lenQ queries outI outD)
  nnInit : ∀ len arr, MLe (spi.nnInit len arr) (r.nnInit len arr)
  nnSearch : ∀ o lenQ queries k rs radius oq nn, (rs = true → FloatOps.lt FloatOps.zero radius = true ∧ oq ≠ .null) →
    MLe (spi.nnSearch o lenQ queries k rs radius oq nn) (r.nnSearch o lenQ queries k rs radius oq nn)

theorem closeNN_repl {spi : Spi F} (s : Repl spi) (o : Option spi.NN) : closeNN s.spi o = closeNN spi o := by
  cases o <;> rfl

theorem closeAll_repl {spi : Spi F} (s : Repl spi) (son : Option (Blk Nat)) (ta : Nat) (oa os : Option spi.NN) : closeAll s.spi son ta oa os = closeAll spi son ta oa os := by
  unfold closeAll
  rw [closeNN_repl, closeNN_repl]

section
variable {spi : Spi F} {s : Repl spi} (h : s.Above)
include h

/-- If an array for answered queries is needed, there is one. -/
theorem internalOut_next {β : Type} {rs : Bool} {outQ : OutQ} {lenQ : Nat} {f g : Except ErrorCode (OutQ × Option (Blk Nat)) → M β} (he : ∀ e, MLe (f (.error e)) (g (.error e)))
    (ho : ∀ dq b, (rs = true → dq ≠ .null) → MLe (f (.ok (dq, b))) (g (.ok (dq, b)))) : MLe (internalOut rs outQ lenQ >>= f) (internalOut rs outQ lenQ >>= g) := by
  unfold internalOut
  cases rs with
  | false => exact ho _ _ nofun
  | true =>
    cases outQ with
    | same => exact ho _ _ fun _ => nofun
    | buf b => exact ho _ _ fun _ => nofun
    | null =>
      rw [if_pos rfl]
      dsimp only
      rw [bind_assoc, bind_assoc]
      refine MLe.next fun b => ?_
      cases b with
      | none =>
        dsimp only
        unfold fail
        rw [bind_assoc, bind_assoc]
        exact MLe.next fun e => he e
      | some b => exact ho _ _ fun _ => nofun

theorem makeNngFromSearchDbg_le (cfg : Cfg) (o : spi.NN) (n lenQ : Nat) (queries : Option Arr) (k : Nat) (rs : Bool) (radius : F) (outQ : OutQ) :
    MLe (makeNngFromSearchDbg cfg spi o n lenQ queries k rs radius outQ) (makeNngFromSearchDbg cfg s.spi o n lenQ queries k rs radius outQ) := by
  unfold makeNngFromSearchDbg asrtRadius
  refine MLe.next fun _ => MLe.next fun _ => MLe.asrt fun hr => ?_
  refine internalOut_next h (fun _ => MLe.refl _) fun dq b hq => ?_
  refine MLe.next fun d => ?_
  cases d with
  | error => exact MLe.refl _
  | ok d => exact MLe.next fun _ => MLe.first (h.nnSearch _ _ _ _ _ _ _ _ fun e => ⟨hr e, hq e⟩)

theorem makeNngDbg_le (cfg : Cfg) (n lenS : Nat) (search : Option Arr) (lenQ : Nat) (queries : Option Arr) (k : Nat) (rs : Bool) (radius : F) (outQ : OutQ) :
    MLe (makeNngDbg cfg spi n lenS search lenQ queries k rs radius outQ) (makeNngDbg cfg s.spi n lenS search lenQ queries k rs radius outQ) := by
  unfold makeNngDbg
  refine MLe.next fun _ => MLe.next fun _ => MLe.next fun _ => MLe.next fun _ => MLe.next fun _ => MLe.next fun _ => MLe.bind (h.nnInit _ _) fun a => ?_
  cases a with
  | none => exact MLe.refl _
  | some o => exact MLe.first (makeNngFromSearchDbg_le h cfg o n lenQ queries k rs radius outQ)

theorem nngWithSizeDbg_le (cfg : Cfg) (n S lenPrimary : Nat) (primary : Option Arr) (rs : Bool) (radius : F) :
    MLe (nngWithSizeDbg cfg spi n S lenPrimary primary rs radius) (nngWithSizeDbg cfg s.spi n S lenPrimary primary rs radius) := by
  unfold nngWithSizeDbg nngSizeArcsDbg
  refine MLe.first ?_
  refine MLe.next fun _ => MLe.next fun _ => MLe.next fun _ => MLe.next fun _ => MLe.next fun _ => MLe.next fun _ => ?_
  exact MLe.first (makeNngDbg_le h ..)

theorem typeNngStepDbg_le (cfg : Cfg) (n : Nat) (tcs : Buf Nat) (tc : TypeCount) (primary : Option Arr) (rs : Bool) (radius : F) (st : TypeSt) (i : Nat) :
    MLe (typeNngStepDbg cfg spi n tcs tc primary rs radius st i) (typeNngStepDbg cfg s.spi n tcs tc primary rs radius st i) := by
  unfold typeNngStepDbg
  refine MLe.next fun c => MLe.ite (fun _ => MLe.next fun p => ?_) fun _ => MLe.refl _
  exact MLe.first (makeNngDbg_le h ..)

theorem addGeneralDbg_le (cfg : Cfg) (n S sum : Nat) (primary : Option Arr) (rs : Bool) (radius : F) (numQ : Nat) (seedable : Option (Blk Nat)) (d : Digraph) :
    MLe (addGeneralDbg cfg spi n S sum primary rs radius numQ seedable d) (addGeneralDbg cfg s.spi n S sum primary rs radius numQ seedable d) := by
  unfold addGeneralDbg
  exact MLe.ite (fun _ => MLe.first (makeNngDbg_le h ..)) fun _ => MLe.refl _

theorem combineTypesDbg_le (cfg : Cfg) (n S sum arrId : Nat) (primary : Option Arr) (rs : Bool) (radius : F) (r : Ctl TypeSt (ErrorCode × TypeSt)) :
    MLe (combineTypesDbg cfg spi n S sum arrId primary rs radius r) (combineTypesDbg cfg s.spi n S sum arrId primary rs radius r) := by
  unfold combineTypesDbg
  cases r with
  | stop => exact MLe.refl _
  | next st =>
    refine MLe.next fun _ => MLe.next fun u => MLe.next fun _ => MLe.next fun _ => ?_
    cases u with
    | error => exact MLe.refl _
    | ok d => exact addGeneralDbg_le h ..

theorem nngWithTypesDbg_le (cfg : Cfg) (n S numTypes : Nat) (tcs labels : Buf Nat) (lenPrimary : Nat) (primary : Option Arr) (rs : Bool) (radius : F) :
    MLe (nngWithTypesDbg cfg spi n S numTypes tcs labels lenPrimary primary rs radius) (nngWithTypesDbg cfg s.spi n S numTypes tcs labels lenPrimary primary rs radius) := by
  unfold nngWithTypesDbg nngTypeArcsDbg
  refine MLe.first ?_
  refine MLe.next fun _ => MLe.next fun _ => MLe.next fun _ => MLe.next fun _ => MLe.next fun _ => MLe.next fun _ => MLe.next fun _ => MLe.next fun _ => MLe.next fun a => ?_
  cases a with
  | error => exact MLe.refl _
  | ok seedable =>
    refine MLe.next fun a => ?_
    cases a with
    | none => exact MLe.refl _
    | some arr =>
      refine MLe.next fun a => ?_
      cases a with
      | error => exact MLe.refl _
      | ok tc =>
        refine MLe.bind (MLe.foldBM (fun st i => typeNngStepDbg_le h ..) _ _) fun r => ?_
        exact MLe.next fun _ => MLe.next fun _ => MLe.next fun _ => combineTypesDbg_le h ..

theorem estimateAvgDbg_le (cfg : Cfg) (sr : SeedResult) (nng : Digraph) (S : Nat) : MLe (estimateAvgDbg cfg spi sr nng S) (estimateAvgDbg cfg s.spi sr nng S) := by
  unfold estimateAvgDbg
  refine MLe.next fun _ => MLe.next fun _ => MLe.next fun _ => MLe.next fun _ => MLe.next fun _ => MLe.next fun _ => MLe.next fun _ => MLe.next fun _ => MLe.next fun a => ?_
  cases a with
  | none => exact MLe.refl _
  | some b =>
    refine MLe.first (MLe.foldBM (fun st i => ?_) _ _)
    unfold estimateStepDbg
    refine MLe.next fun p => MLe.next fun _ => MLe.next fun _ => ?_
    exact MLe.first (h.distRows ..)

theorem assignBySearchDbg_le (cfg : Cfg) (o : spi.NN) (cl : Clustering) (num : Nat) (ta : Blk Nat) (rs : Bool) (radius : F) :
    MLe (assignBySearchDbg cfg spi o cl num ta rs radius) (assignBySearchDbg cfg s.spi o cl num ta rs radius) := by
  unfold assignBySearchDbg asrtRadius
  refine MLe.next fun _ => MLe.next fun _ => MLe.asrt fun hr => MLe.next fun b => MLe.next fun _ => ?_
  exact MLe.first (h.nnSearch _ _ _ _ _ _ _ _ fun e => ⟨hr e, by rw [if_pos e]; nofun⟩)

theorem assignUnassignedDbg_le (cfg : Cfg) (oa os : Option spi.NN) (um : UnassignedMethod) (cl : Clustering) (num : Nat) (ta : Blk Nat) (rs : Bool) (radius : F) :
    MLe (assignUnassignedDbg cfg spi oa os um cl num ta rs radius) (assignUnassignedDbg cfg s.spi oa os um cl num ta rs radius) := by
  unfold assignUnassignedDbg
  refine MLe.ite (fun _ => MLe.ite (fun _ => MLe.next fun o => ?_) fun _ => MLe.ite (fun _ => MLe.next fun o => ?_) fun _ => MLe.refl _) fun _ => MLe.refl _
  · exact assignBySearchDbg_le h ..
  · exact assignBySearchDbg_le h ..

theorem searchRoundsDbg_le (cfg : Cfg) (cl : Clustering) (son : Option (Blk Nat)) (oa os : Option spi.NN) (ta : Blk Nat) (um : UnassignedMethod) (rs : Bool) (radius : F) (lenPrimary : Nat)
    (primary : Option (Buf Nat)) (um2 : UnassignedMethod) (rs2 : Bool) (radius2 : F) :
    MLe (searchRoundsDbg cfg spi cl son oa os ta um rs radius lenPrimary primary um2 rs2 radius2)
      (searchRoundsDbg cfg s.spi cl son oa os ta um rs radius lenPrimary primary um2 rs2 radius2) := by
  unfold searchRoundsDbg
  simp only [closeAll_repl]
  refine MLe.next fun p => MLe.bind (assignUnassignedDbg_le h ..) fun q => ?_
  refine MLe.ite (fun _ => MLe.refl _) fun _ => MLe.first ?_
  unfold secondRoundDbg
  refine MLe.ite (fun _ => MLe.next fun p => ?_) fun _ => MLe.refl _
  exact MLe.first (assignUnassignedDbg_le h ..)

theorem initNN_le (need : Bool) (len : Nat) (arr : Option (Blk Nat)) (line : Nat) :
    MLe (initNN spi need len arr line) (initNN s.spi need len arr line) := by
  unfold initNN
  refine MLe.ite (fun _ => MLe.bind (h.nnInit ..) fun a => ?_) fun _ => MLe.refl _
  cases a <;> exact MLe.refl _

theorem assignRemainingDbg_le (cfg : Cfg) (cl : Clustering) (total numSon : Nat) (son : Option (Blk Nat)) (sr : SeedResult) (um : UnassignedMethod) (rs : Bool) (radius : F)
    (lenPrimary : Nat) (primary : Option (Buf Nat)) (um2 : UnassignedMethod) (rs2 : Bool) (radius2 : F) :
    MLe (assignRemainingDbg cfg spi cl total numSon son sr um rs radius lenPrimary primary um2 rs2 radius2)
      (assignRemainingDbg cfg s.spi cl total numSon son sr um rs radius lenPrimary primary um2 rs2 radius2) := by
  unfold assignRemainingDbg
  simp only [closeNN_repl]
  refine MLe.next fun _ => MLe.bind (initNN_le h ..) fun a => ?_
  cases a with
  | error => exact MLe.refl _
  | ok oa =>
    refine MLe.bind (initNN_le h ..) fun a => ?_
    cases a with
    | error => exact MLe.refl _
    | ok os =>
      refine MLe.next fun a => ?_
      cases a with
      | none => exact MLe.refl _
      | some ta => exact searchRoundsDbg_le h ..

theorem makeClustersDbg_le (cfg : Cfg) (cl : Clustering) (sr : SeedResult) (nng : Digraph) (ordered : Bool) (um : UnassignedMethod) (rs : Bool) (radius : F) (lenPrimary : Nat)
    (primary : Option (Buf Nat)) (um2 : UnassignedMethod) (rs2 : Bool) (radius2 : F) :
    MLe (makeClustersDbg cfg spi cl sr nng ordered um rs radius lenPrimary primary um2 rs2 radius2)
      (makeClustersDbg cfg s.spi cl sr nng ordered um rs radius lenPrimary primary um2 rs2 radius2) := by
  unfold makeClustersDbg
  refine MLe.next fun _ => MLe.next fun _ => MLe.next fun _ => MLe.next fun _ => MLe.next fun _ => MLe.next fun _ => MLe.next fun _ => MLe.next fun _ => MLe.next fun _ => MLe.next fun _ =>
    MLe.next fun _ => MLe.next fun p => ?_
  refine MLe.ite (fun _ => MLe.refl _) fun _ => MLe.next fun a => ?_
  cases a with
  | error => exact MLe.refl _
  | ok son =>
    refine MLe.ite (fun _ => MLe.next fun q => MLe.ite (fun _ => MLe.refl _) fun _ => MLe.next fun _ => ?_) fun _ => MLe.next fun _ => ?_
    · exact MLe.first (assignRemainingDbg_le h ..)
    · exact MLe.first (assignRemainingDbg_le h ..)

theorem clusteringFromNngDbg_le (cfg : Cfg) (cl : Clustering) (nng : Digraph) (o : Options F) (m : SeedMethod) :
    MLe (clusteringFromNngDbg cfg spi cl nng o m) (clusteringFromNngDbg cfg s.spi cl nng o m) := by
  unfold clusteringFromNngDbg
  refine MLe.next fun _ => MLe.next fun _ => MLe.next fun _ => MLe.next fun _ => MLe.next fun _ => MLe.next fun a => ?_
  cases a with
  | error => exact MLe.refl _
  | ok sr =>
    refine MLe.bind ?_ fun a => ?_
    · unfold estimateRadiiDbg
      exact MLe.ite (fun _ => MLe.first (estimateAvgDbg_le h ..)) fun _ => MLe.refl _
    · cases a with
      | error => exact MLe.refl _
      | ok p =>
        refine MLe.next fun _ => MLe.next fun _ => MLe.next fun q => MLe.ite (fun _ => MLe.refl _) fun _ => ?_
        exact MLe.first (makeClustersDbg_le h ..)

theorem clusterByNngDbg_le (cfg : Cfg) (cl : Clustering) (o : Options F) (m : SeedMethod) : MLe (clusterByNngDbg cfg spi cl o m) (clusterByNngDbg cfg s.spi cl o m) := by
  unfold clusterByNngDbg
  refine MLe.bind ?_ fun a => ?_
  · unfold buildNngDbg
    exact MLe.ite (fun _ => nngWithSizeDbg_le h ..) fun _ => MLe.next fun _ => nngWithTypesDbg_le h ..
  · cases a with
    | error => exact MLe.refl _
    | ok nng => exact MLe.next fun _ => MLe.first (clusteringFromNngDbg_le h ..)

theorem batchLoopDbg_le (cfg : Cfg) (o : spi.NN) (ids : BatchIds) (n S : Nat) (ignore rs : Bool) (radius : F) (primary : Option (Buf Bool)) (bs : Nat)
    (hr : rs = true → FloatOps.lt FloatOps.zero radius = true) : ∀ (fuel cur : Nat) (r : RunSt),
    MLe (batchLoopDbg cfg spi o ids n S ignore rs radius primary bs fuel cur r) (batchLoopDbg cfg s.spi o ids n S ignore rs radius primary bs fuel cur r)
  | 0, cur, r => by
    unfold batchLoopDbg
    exact MLe.refl _
  | fuel + 1, cur, r => by
    unfold batchLoopDbg
    refine MLe.ite (fun _ => MLe.next fun p => MLe.ite (fun _ => MLe.refl _) fun _ => MLe.next fun _ => ?_) fun _ => MLe.refl _
    refine MLe.bind (h.nnSearch _ _ _ _ _ _ _ _ fun e => ⟨hr e, nofun⟩) fun a => ?_
    cases a with
    | none => exact MLe.refl _
    | some res =>
      refine MLe.next fun nn => MLe.next fun c => ?_
      cases c with
      | stop => exact MLe.refl _
      | next st => exact batchLoopDbg_le cfg o ids n S ignore rs radius primary bs hr fuel _ _

theorem batchesMainDbg_le (cfg : Cfg) (o : spi.NN) (cl : Clustering) (S : Nat) (um : UnassignedMethod) (rs : Bool) (radius : F) (lenPrimary : Nat)
    (primary : Option (Buf Nat)) (bs : Nat) (batch out : Blk Nat) (assigned : Blk Bool) :
    MLe (batchesMainDbg cfg spi o cl S um rs radius lenPrimary primary bs batch out assigned) (batchesMainDbg cfg s.spi o cl S um rs radius lenPrimary primary bs batch out assigned) := by
  unfold batchesMainDbg
  refine MLe.next fun p => MLe.ite (fun _ => MLe.refl _) fun _ => MLe.next fun pr => MLe.first ?_
  unfold runBatchesDbg
  refine MLe.next fun _ => MLe.next fun _ => MLe.next fun _ => MLe.next fun _ => MLe.next fun _ => MLe.asrt fun hr => MLe.next fun _ => MLe.next fun _ => ?_
  exact MLe.first (batchLoopDbg_le h _ _ _ _ _ _ _ _ _ _ (fun e => hr.resolve_left (by simp [e])) _ _ _)

theorem clusterBatchesDbg_le (cfg : Cfg) (cl : Clustering) (S : Nat) (um : UnassignedMethod) (rs : Bool) (radius : F) (lenPrimary : Nat) (primary : Option (Buf Nat)) (batchSize : Nat) :
    MLe (clusterBatchesDbg cfg spi cl S um rs radius lenPrimary primary batchSize) (clusterBatchesDbg cfg s.spi cl S um rs radius lenPrimary primary batchSize) := by
  unfold clusterBatchesDbg
  have he : batchArgsError s.spi cl S um rs radius lenPrimary primary = batchArgsError spi cl S um rs radius lenPrimary primary := rfl
  rw [he]
  cases batchArgsError spi cl S um rs radius lenPrimary primary with
  | some e => exact MLe.refl _
  | none =>
    refine MLe.bind (h.nnInit ..) fun a => ?_
    cases a with
    | none => exact MLe.refl _
    | some o =>
      refine MLe.next fun batch => MLe.next fun out => MLe.next fun assigned => ?_
      match batch, out, assigned with
      | none, _, _ => exact MLe.refl _
      | some _, none, _ => exact MLe.refl _
      | some _, some _, none => exact MLe.refl _
      | some batch, some out, some assigned => exact batchesMainDbg_le h ..

/-- `scc_sc_clustering` in a build with assertions. -/
theorem scClusteringDbg_le (cfg : Cfg) (o : Options F) (p : Option ClObj) : MLe (scClusteringDbg cfg spi o p) (scClusteringDbg cfg s.spi o p) := by
  unfold scClusteringDbg
  refine MLe.next fun valid => ?_
  cases p with
  | none => exact MLe.refl _
  | some ob =>
    cases valid with
    | false => exact MLe.refl _
    | true =>
      refine MLe.ite (fun _ => MLe.refl _) fun _ => MLe.ite (fun _ => MLe.refl _) fun _ => MLe.next fun ec => MLe.ite (fun _ => MLe.refl _) fun _ => MLe.ite (fun _ => MLe.refl _) fun _ => ?_
      cases o.seedMethod with
      | batches => exact MLe.first (clusterBatchesDbg_le h ..)
      | method m => exact MLe.first (clusterByNngDbg_le h ..)
      | unknown => exact MLe.refl _

theorem centerLoop_le (ids : HiIds) (obj : spi.MD) (marker : Nat) : ∀ (fuel : Nat) (st : CenterSt F) (maxI : Buf Nat) (maxD : Buf F),
    MLe (centerLoop spi ids obj marker fuel st maxI maxD) (centerLoop s.spi ids obj marker fuel st maxI maxD)
  | 0, st, maxI, maxD => by
    unfold centerLoop
    exact MLe.refl _
  | fuel + 1, st, maxI, maxD => by
    unfold centerLoop
    refine MLe.ite (fun _ => MLe.refl _) fun _ => MLe.next fun _ => MLe.bind (h.maxDist ..) fun a => ?_
    cases a with
    | none => exact MLe.refl _
    | some p => exact MLe.next fun st => centerLoop_le ids obj marker fuel st _ _

theorem findCentersDbg_le (cfg : Cfg) (ids : HiIds) (c : HiItem) (b : HiBufs F) : MLe (findCentersDbg cfg spi ids c b) (findCentersDbg cfg s.spi ids c b) := by
  unfold findCentersDbg
  refine MLe.next fun _ => MLe.next fun _ => MLe.next fun p => MLe.bind (h.maxInit ..) fun a => ?_
  cases a with
  | none => exact MLe.refl _
  | some obj => exact MLe.first (centerLoop_le h ..)

theorem breakClusterDbg_le (cfg : Cfg) (hi : HiEnv F) (ids : HiIds) (S : Nat) (batch : Bool) (c : HiItem) (b : HiBufs F) :
    MLe (breakClusterDbg cfg hi spi ids S batch c b) (breakClusterDbg cfg hi s.spi ids S batch c b) := by
  unfold breakClusterDbg
  refine MLe.next fun _ => MLe.next fun _ => MLe.next fun _ => MLe.bind (findCentersDbg_le h ..) fun a => ?_
  cases a with
  | error => exact MLe.refl _
  | ok p =>
    refine MLe.next fun _ => MLe.next fun _ => MLe.next fun _ => MLe.next fun _ => MLe.next fun _ => ?_
    exact MLe.first (h.distRows ..)

theorem hiStepDbg_le (cfg : Cfg) (hi : HiEnv F) (ids : HiIds) (lids : List Nat) (S : Nat) (batch : Bool) (r : HiRun F) :
    MLe (hiStepDbg cfg hi spi ids lids S batch r) (hiStepDbg cfg hi s.spi ids lids S batch r) := by
  unfold hiStepDbg
  refine MLe.next fun a => ?_
  cases a with
  | error => exact MLe.refl _
  | ok stack =>
    refine MLe.next fun c => MLe.ite (fun _ => MLe.refl _) fun _ => MLe.next fun _ => ?_
    exact MLe.first (breakClusterDbg_le h ..)

theorem hiLoopDbg_le (cfg : Cfg) (hi : HiEnv F) (ids : HiIds) (lids : List Nat) (S : Nat) (batch : Bool) : ∀ (fuel : Nat) (r : HiRun F),
    MLe (hiLoopDbg cfg hi spi ids lids S batch fuel r) (hiLoopDbg cfg hi s.spi ids lids S batch fuel r)
  | 0, r => by
    unfold hiLoopDbg
    exact MLe.refl _
  | fuel + 1, r => by
    unfold hiLoopDbg
    refine MLe.ite (fun _ => MLe.refl _) fun _ => MLe.bind (hiStepDbg_le h ..) fun p => ?_
    obtain ⟨_ | e, r⟩ := p
    · exact hiLoopDbg_le cfg hi ids lids S batch fuel r
    · exact MLe.refl _

theorem hiMainDbg_le (cfg : Cfg) (hi : HiEnv F) (S : Nat) (batch : Bool) (cl : Clustering) (stack : HiStack) (store : Blk Nat) (largest : Nat) :
    MLe (hiMainDbg cfg hi spi S batch cl stack store largest) (hiMainDbg cfg hi s.spi S batch cl stack store largest) := by
  unfold hiMainDbg
  refine MLe.next fun _ => MLe.next fun i1 => MLe.next fun i2 => MLe.next fun d => MLe.next fun m => MLe.next fun e1 => MLe.next fun e2 => MLe.first ?_
  unfold hiWorkDbg
  split
  · refine MLe.next fun _ => MLe.next fun _ => MLe.next fun _ => MLe.next fun _ => MLe.next fun _ => MLe.next fun _ => ?_
    exact MLe.first (hiLoopDbg_le h ..)
  · exact MLe.refl _

/-- `scc_hierarchical_clustering` in a build with assertions. -/
theorem hierarchicalDbg_le (cfg : Cfg) (hi : HiEnv F) (S : Nat) (batch : Bool) (p : Option ClObj) :
    MLe (hierarchicalDbg cfg hi spi S batch p) (hierarchicalDbg cfg hi s.spi S batch p) := by
  unfold hierarchicalDbg
  refine MLe.next fun ok => ?_
  cases ok with
  | false => exact MLe.refl _
  | true =>
    cases p with
    | none => exact MLe.refl _
    | some ob =>
      have he : hiArgsError s.spi ob.cl S = hiArgsError spi ob.cl S := rfl
      dsimp only
      rw [he]
      cases hiArgsError spi ob.cl S with
      | some e => exact MLe.refl _
      | none =>
        refine MLe.first ?_
        unfold hiClusterDbg
        refine MLe.next fun q => MLe.ite (fun _ => MLe.refl _) fun _ => MLe.next fun a => ?_
        cases a with
        | error => exact MLe.refl _
        | ok t => exact hiMainDbg_le h ..

theorem statsStep_le (cfg : Cfg) (ids : StatIds) (sizes ends store : Buf Nat) (st : Stats F × Buf F) (c : Nat) :
    MLe (statsStep cfg spi ids sizes ends store st c) (statsStep cfg s.spi ids sizes ends store st c) := by
  unfold statsStep
  exact MLe.next fun p => MLe.ite (fun _ => MLe.refl _) fun _ => MLe.next fun _ => MLe.first (h.distMatrix ..)

/-- `scc_get_clustering_stats` in a build with assertions. -/
theorem getStatsDbg_le (cfg : Cfg) (p : Option ClObj) (hasOut : Bool) : MLe (getStatsDbg cfg spi p hasOut) (getStatsDbg cfg s.spi p hasOut) := by
  unfold getStatsDbg
  refine MLe.ite (fun _ => MLe.refl _) fun _ => MLe.next fun valid => ?_
  cases p with
  | none => exact MLe.refl _
  | some ob =>
    cases valid with
    | false => exact MLe.refl _
    | true =>
      have he : statsError s.spi ob.cl = statsError spi ob.cl := rfl
      dsimp only
      rw [he]
      cases statsError spi ob.cl with
      | some e => exact MLe.refl _
      | none =>
        refine MLe.first ?_
        unfold statsMainDbg
        refine MLe.next fun b => ?_
        cases b with
        | none => exact MLe.refl _
        | some b =>
          refine MLe.next fun sizes => MLe.next fun st => MLe.ite (fun _ => MLe.refl _) fun _ => ?_
          unfold statsArraysDbg
          refine MLe.next fun store => MLe.next fun ends => MLe.next fun scratch => ?_
          split
          · unfold statsRunDbg
            refine MLe.next fun _ => MLe.next fun _ => MLe.next fun _ => MLe.first (MLe.foldBM (fun st c => ?_) _ _)
            exact statsStep_le h ..
          · exact MLe.refl _

end

end Scc
