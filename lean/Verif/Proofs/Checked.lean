/-
The parts of the library that check all their allocations: they do not notice when requests that other parts do not check fail.
-/
import Verif.Proofs.Undefined
import Verif.Spec.Failures

set_option linter.unusedSimpArgs false
set_option linter.unusedVariables false

namespace Scc

variable {F : Type} [FloatOps F]

/-- When nothing fails, `x` does the same as under a schedule in which the requests it makes succeed if the code checks them: it makes no other requests. -/
def Checked {α : Type} (x : M α) : Prop := ∀ w : World, w.NoFail → ∀ a w', x w = some (a, w') →
  w'.fails = w.fails ∧ w.clock ≤ w'.clock ∧ ∀ f, (∀ i < w'.clock, f i true = false) → x (w.withFails f) = some (a, w'.withFails f)

namespace Checked

theorem pure {α : Type} {a : α} : Checked (Pure.pure a : M α) := by
  intro w hw b w' h
  cases h
  exact ⟨rfl, le_rfl, fun f hf => rfl⟩

theorem bind {α β : Type} {x : M α} {g : α → M β} (hx : Checked x) (hg : ∀ a, Checked (g a)) : Checked (x >>= g) := by
  intro w hw b w2 h
  change (StateT.bind x g) w = _ at h
  unfold StateT.bind at h
  cases hx1 : x w with
  | none => rw [hx1] at h; cases h
  | some p =>
    obtain ⟨a, w1⟩ := p
    rw [hx1] at h
    change g a w1 = _ at h
    obtain ⟨k1, c1, k2⟩ := hx w hw a w1 hx1
    obtain ⟨k3, c2, k4⟩ := hg a w1 (fun i c => by rw [k1]; exact hw i c) b w2 h
    refine ⟨k3.trans k1, c1.trans c2, fun f hf => ?_⟩
    show (StateT.bind x g) _ = _
    unfold StateT.bind
    rw [k2 f fun i hi => hf i (lt_of_lt_of_le hi c2)]
    exact k4 f hf

theorem useK {α : Type} {ids : List Nat} {k : Option α} : Checked (Scc.useK ids k) := by
  intro w hw a w' h
  unfold Scc.useK at h ⊢
  split at h
  · rename_i hl
    cases k with
    | none => cases h
    | some b =>
      cases h
      exact ⟨rfl, le_rfl, fun f hf => by rw [if_pos (by exact hl)]; rfl⟩
  · cases h

theorem touch {ids : List Nat} : Checked (Scc.touch ids) := useK

theorem alloc {α : Type} {b : Buf α} : Checked (Scc.alloc b) := by
  intro w hw a w' h
  unfold Scc.alloc at h ⊢
  rw [if_neg (by rw [hw]; decide)] at h
  cases h
  have hc : w.clock < w.fresh + 1 := Nat.lt_succ_of_le (le_max_left _ _)
  exact ⟨rfl, hc.le, fun f hf => by rw [if_neg (by show ¬ f w.clock true = true; rw [hf _ hc]; decide)]; rfl⟩

theorem freeId {i : Nat} : Checked (Scc.freeId i) := by
  intro w hw a w' h
  unfold Scc.freeId at h ⊢
  split at h
  · rename_i hl
    cases h
    exact ⟨rfl, le_rfl, fun f hf => by rw [if_pos (by exact hl)]; rfl⟩
  · cases h

theorem freePtr {α : Type} {p : Option (Blk α)} : Checked (Scc.freePtr p) := by
  cases p with
  | none => exact pure
  | some b => exact freeId

theorem reallocBlk {α : Type} {b : Blk α} {n : Nat} : Checked (Scc.reallocBlk b n) := by
  intro w hw a w' h
  unfold Scc.reallocBlk at h ⊢
  split at h
  · rename_i hl
    rw [if_neg (by rw [hw]; decide)] at h
    cases h
    have hc : w.clock < w.fresh + 1 := Nat.lt_succ_of_le (le_max_left _ _)
    exact ⟨rfl, hc.le, fun f hf => by rw [if_pos (by exact hl), if_neg (by show ¬ f w.clock true = true; rw [hf _ hc]; decide)]; rfl⟩
  · cases h

theorem mkErr {ec : ErrorCode} {file : String} {line : Nat} {msg : Option String} : Checked (Scc.mkErr ec file line msg) := by
  intro w hw a w' h
  cases h
  exact ⟨rfl, le_rfl, fun f hf => rfl⟩

theorem resetErr : Checked Scc.resetErr := by
  intro w hw a w' h
  cases h
  exact ⟨rfl, le_rfl, fun f hf => rfl⟩

end Checked

/-- One step of a proof that a function checks its allocations. -/
syntax "checked_step" : tactic
macro_rules | `(tactic| checked_step) => `(tactic| exact Checked.pure)
macro_rules | `(tactic| checked_step) => `(tactic| exact Checked.useK)
macro_rules | `(tactic| checked_step) => `(tactic| exact Checked.touch)
macro_rules | `(tactic| checked_step) => `(tactic| exact Checked.alloc)
macro_rules | `(tactic| checked_step) => `(tactic| exact Checked.freeId)
macro_rules | `(tactic| checked_step) => `(tactic| exact Checked.freePtr)
macro_rules | `(tactic| checked_step) => `(tactic| exact Checked.reallocBlk)
macro_rules | `(tactic| checked_step) => `(tactic| exact Checked.mkErr)
macro_rules | `(tactic| checked_step) => `(tactic| exact Checked.resetErr)
macro_rules | `(tactic| checked_step) => `(tactic| assumption)

/-- A function built from parts that check their allocations. -/
syntax "checked" : tactic
macro_rules | `(tactic| checked) => `(tactic| repeat' first | checked_step | refine Checked.bind ?_ fun _ => ?_ | split)

theorem Checked.fail {α : Type} {ec : ErrorCode} {file : String} {line : Nat} {msg : Option String} : Checked (fail ec file line msg : M (Except ErrorCode α)) := by
  unfold Scc.fail; checked
macro_rules | `(tactic| checked_step) => `(tactic| exact Checked.fail)

theorem Checked.foldlM {σ α : Type} {f : σ → α → M σ} (hf : ∀ s a, Checked (f s a)) (l : List α) (s : σ) : Checked (l.foldlM f s) := by
  induction l generalizing s with
  | nil => exact Checked.pure
  | cons a l ih => rw [List.foldlM_cons]; exact Checked.bind (hf s a) fun s => ih s

theorem Checked.foldBM {σ α ρ : Type} {f : σ → α → M (Ctl σ ρ)} (hf : ∀ s a, Checked (f s a)) (s : σ) (l : List α) : Checked (Scc.foldBM f s l) := by
  induction l generalizing s with
  | nil => exact Checked.pure
  | cons a l ih =>
    unfold Scc.foldBM
    refine Checked.bind (hf s a) fun c => ?_
    cases c with
    | next s => exact ih s
    | stop r => exact Checked.pure

theorem Checked.freeDigraph {d : Digraph} : Checked (freeDigraph d) := by unfold Scc.freeDigraph; checked
macro_rules | `(tactic| checked_step) => `(tactic| exact Checked.freeDigraph)

theorem Checked.initDigraph {cfg : Cfg} {n a : Nat} : Checked (initDigraph cfg n a) := by unfold Scc.initDigraph; checked
macro_rules | `(tactic| checked_step) => `(tactic| exact Checked.initDigraph)

theorem Checked.reallocHead {p : Option (Blk Nat)} {n : Nat} : Checked (reallocHead p n) := by unfold Scc.reallocHead; checked
macro_rules | `(tactic| checked_step) => `(tactic| exact Checked.reallocHead)

theorem Checked.changeArcStorage {cfg : Cfg} {d : Digraph} {a : Nat} : Checked (changeArcStorage cfg d a) := by unfold Scc.changeArcStorage; checked
macro_rules | `(tactic| checked_step) => `(tactic| exact Checked.changeArcStorage)

theorem Checked.deleteLoops {cfg : Cfg} {d : Digraph} : Checked (deleteLoops cfg d) := by unfold Scc.deleteLoops; checked
macro_rules | `(tactic| checked_step) => `(tactic| exact Checked.deleteLoops)

theorem Checked.allocOutput {cfg : Cfg} {n g r : Nat} {ids : List Nat} {c : Option UnionSt} : Checked (allocOutput cfg n g r ids c) := by unfold Scc.allocOutput; checked
macro_rules | `(tactic| checked_step) => `(tactic| exact Checked.allocOutput)

theorem Checked.buildDigraph {cfg : Cfg} {n g r : Nat} {ids : List Nat} {c : Option UnionSt} {wr : Buf Nat → Buf Nat → Option UnionSt} : Checked (buildDigraph cfg n g r ids c wr) := by
  unfold Scc.buildDigraph; checked
macro_rules | `(tactic| checked_step) => `(tactic| exact Checked.buildDigraph)

theorem Checked.unionAndDelete {cfg : Cfg} {dgs : List Digraph} {ts : Option (List Nat)} {k : Bool} : Checked (unionAndDelete cfg dgs ts k) := by unfold Scc.unionAndDelete; checked
macro_rules | `(tactic| checked_step) => `(tactic| exact Checked.unionAndDelete)

theorem Checked.digraphDifference {cfg : Cfg} {m s : Digraph} {k : Nat} : Checked (digraphDifference cfg m s k) := by unfold Scc.digraphDifference; checked
macro_rules | `(tactic| checked_step) => `(tactic| exact Checked.digraphDifference)

/-! ### Seeds -/

theorem Checked.growSeeds {cfg : Cfg} {sr : SeedResult} : Checked (growSeeds cfg sr) := by unfold Scc.growSeeds; checked
macro_rules | `(tactic| checked_step) => `(tactic| exact Checked.growSeeds)

theorem Checked.addSeed {cfg : Cfg} {s : Nat} {sr : SeedResult} : Checked (addSeed cfg s sr) := by unfold Scc.addSeed; checked
macro_rules | `(tactic| checked_step) => `(tactic| exact Checked.addSeed)

theorem Checked.findSeedsLexical {cfg : Cfg} {nng : Digraph} {cap : Nat} : Checked (findSeedsLexical cfg nng cap) := by
  unfold Scc.findSeedsLexical
  refine Checked.bind Checked.alloc fun _ => Checked.bind Checked.alloc fun _ => ?_
  split
  · refine Checked.bind (Checked.foldBM (fun s a => ?_) _ _) fun _ => ?_
    · unfold lexicalStep; checked
    · checked
  · checked

theorem Checked.freeSort {s : SortResult} : Checked (freeSort s) := by unfold Scc.freeSort; checked
macro_rules | `(tactic| checked_step) => `(tactic| exact Checked.freeSort)

theorem Checked.finishSort {n : Nat} {i : Bool} {c s b : Blk Nat} : Checked (finishSort n i c s b) := by unfold Scc.finishSort; checked
macro_rules | `(tactic| checked_step) => `(tactic| exact Checked.finishSort)

theorem Checked.sortByInwards {g : Digraph} {i : Bool} : Checked (sortByInwards g i) := by unfold Scc.sortByInwards; checked
macro_rules | `(tactic| checked_step) => `(tactic| exact Checked.sortByInwards)

theorem Checked.findSeedsInwards {cfg : Cfg} {nng : Digraph} {u : Bool} {cap : Nat} : Checked (findSeedsInwards cfg nng u cap) := by
  unfold Scc.findSeedsInwards
  refine Checked.bind Checked.sortByInwards fun r => ?_
  split
  · checked
  · refine Checked.bind Checked.alloc fun _ => Checked.bind Checked.alloc fun _ => ?_
    split
    · refine Checked.bind (Checked.foldBM (fun s a => ?_) _ _) fun _ => ?_
      · unfold inwardsStep; checked
      · checked
    · checked

theorem Checked.shrinkSeeds {sr : SeedResult} : Checked (shrinkSeeds sr) := by unfold Scc.shrinkSeeds; checked
macro_rules | `(tactic| checked_step) => `(tactic| exact Checked.shrinkSeeds)

theorem Checked.findSeeds {cfg : Cfg} {nng : Digraph} {m : SeedMethod} {cap : Nat} (hm : ¬ m.IsExclusion) : Checked (findSeeds cfg nng m cap) := by
  unfold Scc.findSeeds
  refine Checked.bind ?_ fun r => by checked
  cases m with
  | lexical => exact Checked.findSeedsLexical
  | inwardsOrder => exact Checked.findSeedsInwards
  | inwardsUpdating => exact Checked.findSeedsInwards
  | exclusionOrder => exact absurd (Or.inl rfl) hm
  | exclusionUpdating => exact absurd (Or.inr rfl) hm

/-! ### Nearest neighbour digraphs -/

/-- The distance functions check all their allocations. -/
structure SpiChecked (spi : Spi F) : Prop where
  nnInit : ∀ len arr, Checked (spi.nnInit len arr)
  nnSearch : ∀ o len q k rs r oq nn, Checked (spi.nnSearch o len q k rs r oq nn)
  nnClose : ∀ o, Checked (spi.nnClose o)
  distRows : ∀ lq q lc c out, Checked (spi.distRows lq q lc c out)

theorem builtinSpi_checked (p : Option (DataSet F)) : SpiChecked (builtinSpi p) where
  nnInit := fun len arr => by show Checked (searchInit len arr); unfold searchInit; checked
  nnSearch := fun o len q k rs r oq nn => by show Checked (nnSearch _ o len q k rs r oq nn); unfold nnSearch; checked
  nnClose := fun o => by show Checked (searchClose o); unfold searchClose; checked
  distRows := fun lq q lc c out => by unfold builtinSpi; dsimp only; checked

section
variable {spi : Spi F} (hspi : SpiChecked spi)
include hspi

theorem Checked.makeNngFromSearch {cfg : Cfg} {o : spi.NN} {n lenQ : Nat} {q : Option Arr} {k : Nat} {rs : Bool} {radius : F} {oq : OutQ} :
    Checked (makeNngFromSearch cfg spi o n lenQ q k rs radius oq) := by
  have := hspi.nnSearch o
  unfold Scc.makeNngFromSearch internalOut shrinkNng
  repeat' first | checked_step | exact hspi.nnSearch _ _ _ _ _ _ _ _ | refine Checked.bind ?_ fun _ => ?_ | split

theorem Checked.makeNng {cfg : Cfg} {n lenS : Nat} {s : Option Arr} {lenQ : Nat} {q : Option Arr} {k : Nat} {rs : Bool} {radius : F} {oq : OutQ} :
    Checked (makeNng cfg spi n lenS s lenQ q k rs radius oq) := by
  unfold Scc.makeNng
  repeat' first | checked_step | exact hspi.nnInit _ _ | exact hspi.nnClose _ | exact Checked.makeNngFromSearch hspi | refine Checked.bind ?_ fun _ => ?_ | split

omit hspi in
theorem Checked.sortResult {cfg : Cfg} {r : Except ErrorCode Digraph} : Checked (sortResult cfg r) := by
  unfold Scc.sortResult sortNng
  checked

theorem Checked.nngWithSize {cfg : Cfg} {n S lenP : Nat} {P : Option Arr} {rs : Bool} {radius : F} : Checked (nngWithSize cfg spi n S lenP P rs radius) := by
  unfold Scc.nngWithSize nngSizeArcs
  refine Checked.bind (Checked.bind (Checked.makeNng hspi) fun _ => ?_) fun _ => Checked.sortResult
  checked

theorem Checked.typeNngStep {cfg : Cfg} {n : Nat} {tcs : Buf Nat} {tc : TypeCount} {P : Option Arr} {rs : Bool} {radius : F} {st : TypeSt} {i : Nat} :
    Checked (typeNngStep cfg spi n tcs tc P rs radius st i) := by
  unfold Scc.typeNngStep
  repeat' first | checked_step | exact Checked.makeNng hspi | refine Checked.bind ?_ fun _ => ?_ | split

theorem Checked.addGeneral {cfg : Cfg} {n S sum : Nat} {P : Option Arr} {rs : Bool} {radius : F} {numQ : Nat} {sd : Option (Blk Nat)} {d : Digraph} :
    Checked (addGeneral cfg spi n S sum P rs radius numQ sd d) := by
  unfold Scc.addGeneral extraArcs unionQueries
  repeat' first | checked_step | exact Checked.makeNng hspi | refine Checked.bind ?_ fun _ => ?_ | split

omit hspi in
theorem Checked.freeDigraphs {dgs : List Digraph} : Checked (freeDigraphs dgs) :=
  Checked.foldlM (fun _ d => by checked) _ _

theorem Checked.combineTypes {cfg : Cfg} {n S sum a : Nat} {P : Option Arr} {rs : Bool} {radius : F} {r : Ctl TypeSt (ErrorCode × TypeSt)} :
    Checked (combineTypes cfg spi n S sum a P rs radius r) := by
  unfold Scc.combineTypes unionQueries
  repeat' first | checked_step | exact Checked.freeDigraphs | exact Checked.addGeneral hspi | refine Checked.bind ?_ fun _ => ?_ | split

theorem Checked.nngWithTypes {cfg : Cfg} {n S nt : Nat} {tcs lab : Buf Nat} {lenP : Nat} {P : Option Arr} {rs : Bool} {radius : F} :
    Checked (nngWithTypes cfg spi n S nt tcs lab lenP P rs radius) := by
  unfold Scc.nngWithTypes nngTypeArcs initSeedable typeCount
  refine Checked.bind ?_ fun _ => Checked.sortResult
  repeat' first | checked_step | exact Checked.foldBM (fun _ _ => Checked.typeNngStep hspi) _ _ | exact Checked.combineTypes hspi | refine Checked.bind ?_ fun _ => ?_ | split

theorem Checked.buildNng {cfg : Cfg} {n : Nat} {o : Options F} : Checked (buildNng cfg spi n o) := by
  unfold Scc.buildNng
  split
  · exact Checked.nngWithSize hspi
  · exact Checked.nngWithTypes hspi

theorem Checked.estimateRadii {sr : SeedResult} {nng : Digraph} {S : Nat} {r1 r2 : RadiusMethod × F} : Checked (estimateRadii spi sr nng S r1 r2) := by
  have h : ∀ (i : Nat) (st : Nat × F × Buf F) (s : Nat), Checked (estimateStep spi sr nng i st s) := by
    intro i st s
    unfold estimateStep
    repeat' first | checked_step | exact hspi.distRows _ _ _ _ _ | refine Checked.bind ?_ fun _ => ?_ | split
  unfold Scc.estimateRadii estimateAvg
  repeat' first | checked_step | exact Checked.foldBM (fun _ _ => h _ _ _) _ _ | refine Checked.bind ?_ fun _ => ?_ | split

omit hspi [FloatOps F] in
theorem Checked.ensureLabels {cl : Clustering} : Checked (ensureLabels cl) := by unfold Scc.ensureLabels; checked

end

end Scc
