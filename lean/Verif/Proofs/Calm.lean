/-
A failing allocation is reported: hierarchical clustering, statistics and the small functions.
-/
import Verif.Proofs.WatchHi
import Verif.Spec.Pressure

namespace Scc

variable {F : Type}

/-! ### Rules -/

theorem calm_pure {α : Type} {a : α} {B : α → Prop} : Calm (pure a : M α) B := by
  intro w r hr
  cases hr
  exact Or.inl rfl

theorem calm_bind {α β : Type} {x : M α} {f : α → M β} {A : α → Prop} {B : β → Prop} (hx : Calm x A) (hf : ∀ a, Calm (f a) B) (hb : ∀ a, A a → Ends (f a) B) : Calm (x >>= f) B := by
  intro w r hr
  obtain ⟨a, w1, h1, h2⟩ := bind_eq.1 hr
  rcases hx w _ h1 with h | h
  · rcases hf a w1 r h2 with h' | h'
    · exact Or.inl (bind_eq.2 ⟨a, _, h, h'⟩)
    · exact Or.inr h'
  · exact Or.inr (hb a h w1 r h2)

/-- The first part does not allocate. -/
theorem calm_next {α β : Type} {x : M α} {f : α → M β} {B : β → Prop} (hx : Calm x fun _ => False) (hf : ∀ a, Calm (f a) B) : Calm (x >>= f) B := calm_bind hx hf fun _ h => h.elim

theorem calm_mono {α : Type} {x : M α} {A B : α → Prop} (h : Calm x A) (hab : ∀ a, A a → B a) : Calm x B := fun w r hr => (h w r hr).imp id (hab _)

theorem calm_free {α : Type} {x : M α} {B : α → Prop} (h : Calm x fun _ => False) : Calm x B := calm_mono h fun _ h => h.elim

theorem calm_alloc {α : Type} (init : Buf α) (c : Bool) : Calm (alloc init c) (· = none) := by
  intro w r hr
  unfold alloc at hr
  split at hr
  · cases hr; exact Or.inr rfl
  · cases hr; exact Or.inl rfl

theorem calm_realloc {α : Type} (b : Blk α) (n : Nat) : Calm (reallocBlk b n) (· = none) := by
  intro w r hr
  unfold reallocBlk at hr
  by_cases h : b.id ∈ w.live ∧ 0 < n
  · rw [if_pos h] at hr
    split at hr
    · cases hr; exact Or.inr rfl
    · cases hr
      left
      unfold reallocBlk
      rw [if_pos (show b.id ∈ w.calm.live ∧ 0 < n from h)]
      rfl
  · rw [if_neg h] at hr; cases hr

theorem calm_useK {α : Type} (ids : List Nat) (k : Option α) : Calm (useK ids k) fun _ => False := by
  intro w r hr
  unfold useK at hr ⊢
  by_cases h : ∀ i ∈ ids, i ∈ w.live
  · rw [if_pos h] at hr
    rw [if_pos (show ∀ i ∈ ids, i ∈ w.calm.live from h)]
    cases k with
    | none => cases hr
    | some a => cases hr; exact Or.inl rfl
  · rw [if_neg h] at hr; cases hr

theorem calm_touch (ids : List Nat) : Calm (touch ids) fun _ => False := calm_useK _ _

theorem calm_freeId (i : Nat) : Calm (freeId i) fun _ => False := by
  intro w r hr
  unfold freeId at hr ⊢
  by_cases h : i ∈ w.live
  · rw [if_pos h] at hr
    rw [if_pos (show i ∈ w.calm.live from h)]
    cases hr
    exact Or.inl rfl
  · rw [if_neg h] at hr; cases hr

theorem calm_freePtr {α : Type} (b : Option (Blk α)) : Calm (freePtr b) fun _ => False := by
  cases b with
  | none => exact calm_pure
  | some b => exact calm_freeId _

theorem calm_mkErr (e : ErrorCode) (s : String) (l : Nat) (m : Option String) : Calm (mkErr e s l m) fun _ => False := by
  intro w r hr
  cases hr
  exact Or.inl rfl

theorem calm_fail {α : Type} (e : ErrorCode) (s : String) (l : Nat) (m : Option String) {B : Except ErrorCode α → Prop} : Calm (fail e s l m) B := by
  unfold fail
  exact calm_next (calm_mkErr _ _ _ _) fun _ => calm_pure

theorem calm_foldBM {α σ ρ : Type} {f : σ → α → M (Ctl σ ρ)} {B : ρ → Prop} (h : ∀ s a, Calm (f s a) fun c => ∃ r, c = .stop r ∧ B r) (s : σ) (l : List α) :
    Calm (foldBM f s l) fun c => ∃ r, c = .stop r ∧ B r := by
  induction l generalizing s with
  | nil => exact calm_pure
  | cons a l ih =>
    unfold foldBM
    refine calm_bind (h s a) (fun c => ?_) ?_
    · cases c with
      | next s => exact ih s
      | stop r => exact calm_pure
    · rintro _ ⟨r, rfl, hr⟩
      exact ends_pure ⟨r, rfl, hr⟩

/-- Raise an error and return it with a value. -/
theorem ends_err {α : Type} {e : ErrorCode} {s : String} {l : Nat} {m : Option String} {f : ErrorCode → α} {B : α → Prop} (h : B (f e)) : Ends (mkErr e s l m >>= fun e => pure (f e)) B :=
  ends_bind ends_mkErr fun a ha => ends_pure (ha ▸ h)

theorem calm_err {α : Type} {e : ErrorCode} {s : String} {l : Nat} {m : Option String} {f : ErrorCode → α} {B : α → Prop} : Calm (mkErr e s l m >>= fun e => pure (f e)) B :=
  calm_next (calm_mkErr _ _ _ _) fun _ => calm_pure

/-! ### The small functions -/

theorem calm_isInitialized (cfg : Cfg) (p : Option ClObj) : Calm (isInitialized cfg p) fun _ => False := by
  cases p with
  | none => exact calm_pure
  | some o => exact calm_next (calm_touch _) fun _ => calm_pure

theorem calm_initEmpty (cfg : Cfg) (n : Nat) (labels : Option (Blk Int)) (hasOut : Bool) : Calm (initEmpty cfg n labels hasOut) NotOk := by
  unfold initEmpty
  split
  · exact calm_err
  split
  · exact calm_err
  split
  · exact calm_err
  split
  · exact calm_err
  refine calm_bind (calm_alloc _ _) (fun b => ?_) ?_
  · cases b with
    | none => exact calm_err
    | some b => exact calm_pure
  · rintro _ rfl
    exact ends_err (f := fun e => (e, none)) (by show ErrorCode.noMemory ≠ .ok; decide)

theorem calm_initExisting (cfg : Cfg) (n k : Nat) (labels : Option (Blk Int)) (deep hasOut : Bool) : Calm (initExisting cfg n k labels deep hasOut) NotOk := by
  unfold initExisting
  split
  · exact calm_err
  split
  · exact calm_err
  split
  · exact calm_err
  split
  · exact calm_err
  split
  · exact calm_err
  split
  · exact calm_err
  split
  · exact calm_err
  cases labels with
  | none => exact calm_err
  | some src =>
    dsimp only
    refine calm_bind (calm_alloc _ _) (fun b => ?_) ?_
    · cases b with
      | none => exact calm_err
      | some b =>
        dsimp only
        split
        · refine calm_bind (calm_alloc _ _) (fun d => ?_) ?_
          · cases d with
            | none => exact calm_next (calm_freeId _) fun _ => calm_err
            | some d => exact calm_next (calm_useK _ _) fun _ => calm_pure
          · rintro _ rfl
            exact ends_next fun _ => ends_err (f := fun e => (e, none)) (by show ErrorCode.noMemory ≠ .ok; decide)
        · exact calm_pure
    · rintro _ rfl
      exact ends_err (f := fun e => (e, none)) (by show ErrorCode.noMemory ≠ .ok; decide)

theorem calm_copyClustering (cfg : Cfg) (p : Option ClObj) (hasOut : Bool) : Calm (copyClustering cfg p hasOut) NotOk := by
  unfold copyClustering
  split
  · exact calm_err
  refine calm_next (calm_isInitialized _ _) fun ok => ?_
  cases p with
  | none => exact calm_err
  | some o =>
    cases ok with
    | false => exact calm_err
    | true =>
      dsimp only
      refine calm_bind (calm_alloc _ _) (fun b => ?_) ?_
      · cases b with
        | none => exact calm_err
        | some b =>
          dsimp only
          split
          · refine calm_bind (calm_alloc _ _) (fun d => ?_) ?_
            · cases d with
              | none => exact calm_next (calm_freeId _) fun _ => calm_err
              | some d => exact calm_next (calm_useK _ _) fun _ => calm_pure
            · rintro _ rfl
              exact ends_next fun _ => ends_err (f := fun e => (e, none)) (by show ErrorCode.noMemory ≠ .ok; decide)
          · exact calm_pure
      · rintro _ rfl
        exact ends_err (f := fun e => (e, none)) (by show ErrorCode.noMemory ≠ .ok; decide)

theorem calm_initDataSet (cfg : Cfg) (n dims len : Nat) (data : Option (Buf F)) (hasOut : Bool) : Calm (initDataSet cfg n dims len data hasOut) NotOk := by
  unfold initDataSet
  split
  · exact calm_err
  split
  · exact calm_err
  split
  · exact calm_err
  split
  · exact calm_err
  split
  · exact calm_err
  split
  · exact calm_err
  split
  · exact calm_err
  split
  · exact calm_err
  refine calm_bind (calm_alloc _ _) (fun b => ?_) ?_
  · cases b with
    | none => exact calm_err
    | some b => exact calm_pure
  · rintro _ rfl
    exact ends_err (f := fun e => (e, none)) (by show ErrorCode.noMemory ≠ .ok; decide)

variable [FloatOps F]

theorem calm_checkClustering (cfg : Cfg) (p : Option ClObj) (o : Options F) (hasOut : Bool) : Calm (checkClustering cfg p o hasOut) NotOk := by
  unfold checkClustering
  split
  · exact calm_err
  refine calm_next (calm_isInitialized _ _) fun ok => ?_
  cases p with
  | none => exact calm_err
  | some ob =>
    cases ok with
    | false => exact calm_err
    | true =>
      dsimp only
      split
      · exact calm_err
      refine calm_next ?_ fun ec => ?_
      · unfold checkClusterOptions
        refine calm_next (calm_useK _ _) fun r => ?_
        cases r with
        | none => exact calm_pure
        | some r => exact calm_mkErr _ _ _ _
      split
      · exact calm_pure
      refine calm_next (calm_useK _ _) fun r1 => ?_
      split
      · exact calm_pure
      refine calm_next (calm_useK _ _) fun r2 => ?_
      split
      · exact calm_pure
      refine calm_bind (A := NotOk) ?_ (fun _ => calm_pure) fun r hr => ends_pure hr
      unfold checkCounts
      split
      · refine calm_bind (calm_alloc _ _) (fun b => ?_) ?_
        · cases b with
          | none => exact calm_err
          | some b => exact calm_next (calm_useK _ _) fun _ => calm_next (calm_useK _ _) fun _ => calm_next (calm_freeId _) fun _ => calm_pure
        · rintro _ rfl
          exact ends_err (f := fun e => (e, false)) (by show ErrorCode.noMemory ≠ .ok; decide)
      · refine calm_bind (calm_alloc _ _) (fun b => ?_) ?_
        · cases b with
          | none => exact calm_err
          | some b => exact calm_next (calm_useK _ _) fun _ => calm_next (calm_useK _ _) fun _ => calm_next (calm_freeId _) fun _ => calm_pure
        · rintro _ rfl
          exact ends_err (f := fun e => (e, false)) (by show ErrorCode.noMemory ≠ .ok; decide)

/-! ### The back end -/

theorem calm_search (len : Nat) (a : Option Arr) : Calm (searchInit len a) (· = none) := by
  unfold searchInit
  refine calm_bind (calm_alloc _ _) (fun b => ?_) ?_
  · cases b <;> exact calm_pure
  · rintro _ rfl
    exact ends_pure rfl

/-- The built-in back end reports failed allocations. -/
theorem builtin_steady (p : Option (DataSet F)) : (builtinSpi p).Steady where
  distMatrix _ _ _ := calm_next (calm_useK _ _) fun _ => calm_pure
  distRows _ _ _ _ _ := calm_next (calm_useK _ _) fun _ => calm_pure
  maxInit := calm_search
  maxDist _ _ _ _ _ := calm_next (calm_useK _ _) fun _ => calm_pure
  maxClose _ := calm_next (calm_freeId _) fun _ => calm_pure

variable {spi : Spi F}

/-! ### Hierarchical clustering -/

theorem calm_centerLoop (hs : spi.Steady) (ids : HiIds) (obj : spi.MD) (marker fuel : Nat) (st : CenterSt F) (maxI : Buf Nat) (maxD : Buf F) :
    Calm (centerLoop spi ids obj marker fuel st maxI maxD) IsErr := by
  induction fuel generalizing st maxI maxD with
  | zero =>
    rw [centerLoop.eq_def spi ids obj marker 0]
    intro w r h
    cases h
  | succ fuel ih =>
    rw [centerLoop.eq_def spi ids obj marker (fuel + 1)]
    dsimp only
    by_cases h : st.count = 0
    · rw [if_pos h]; exact calm_pure
    · rw [if_neg h]
      refine calm_next (calm_touch _) fun _ => calm_bind (hs.maxDist _ _ _ _ _) (fun r => ?_) ?_
      · cases r with
        | none =>
          dsimp only
          exact calm_bind (hs.maxClose _) (fun _ => calm_fail _ _ _ _) fun _ _ => ends_fail (by decide)
        | some r =>
          dsimp only
          exact calm_next (calm_useK _ _) fun st => ih st _ _
      · rintro _ rfl
        exact ends_next fun _ => ends_fail (by decide)

theorem calm_findCenters (hs : spi.Steady) (cfg : Cfg) (ids : HiIds) (c : HiItem) (b : HiBufs F) : Calm (findCenters cfg spi ids c b) IsErr := by
  unfold findCenters
  refine calm_next (calm_useK _ _) fun s => ?_
  dsimp only
  refine calm_bind (hs.maxInit _ _) (fun r => ?_) ?_
  · cases r with
    | none => exact calm_fail _ _ _ _
    | some obj =>
      dsimp only
      refine calm_bind (calm_centerLoop hs ids obj _ _ _ _ _) (fun r => ?_) ?_
      · cases r with
        | error e => exact calm_pure
        | ok r =>
          dsimp only
          refine calm_bind (hs.maxClose _) (fun b => ?_) ?_
          · cases b
            · exact calm_fail _ _ _ _
            · exact calm_pure
          · rintro _ rfl
            exact ends_fail (by decide)
      · rintro _ ⟨e, rfl, he⟩
        exact ends_pure ⟨e, rfl, he⟩
  · rintro _ rfl
    exact ends_fail (by decide)

theorem calm_breakCluster (hs : spi.Steady) (cfg : Cfg) (hi : HiEnv F) (ids : HiIds) (S : Nat) (batch : Bool) (c : HiItem) (b : HiBufs F) :
    Calm (breakCluster cfg hi spi ids S batch c b) IsErr := by
  unfold breakCluster
  refine calm_bind (calm_findCenters hs cfg ids c b) (fun r => ?_) ?_
  · cases r with
    | error e => exact calm_pure
    | ok r =>
      dsimp only
      refine calm_next (calm_useK _ _) fun off => calm_next (calm_touch _) fun _ => calm_bind (hs.distRows _ _ _ _ _) (fun r => ?_) ?_
      · cases r with
        | none => exact calm_fail _ _ _ _
        | some r => exact calm_next (calm_useK _ _) fun _ => calm_pure
      · rintro _ rfl
        exact ends_fail (by decide)
  · rintro _ ⟨e, rfl, he⟩
    exact ends_pure ⟨e, rfl, he⟩

omit [FloatOps F] in
theorem calm_checkCapacity (cfg : Cfg) (st : HiStack) : Calm (checkCapacity cfg st) IsErr := by
  unfold checkCapacity
  split
  · dsimp only
    split
    · exact calm_fail _ _ _ _
    · refine calm_bind (calm_realloc _ _) (fun b => ?_) ?_
      · cases b with
        | none => exact calm_fail _ _ _ _
        | some b => exact calm_pure
      · rintro _ rfl
        exact ends_fail (by decide)
  · exact calm_pure

theorem calm_hiStep (hs : spi.Steady) (cfg : Cfg) (hi : HiEnv F) (ids : HiIds) (lids : List Nat) (S : Nat) (batch : Bool) (r : HiRun F) :
    Calm (hiStep cfg hi spi ids lids S batch r) fun r => ∃ e, r.1 = some e ∧ e ≠ .ok := by
  unfold hiStep
  refine calm_bind (calm_checkCapacity _ _) (fun st => ?_) ?_
  · cases st with
    | error e => exact calm_pure
    | ok stack =>
      dsimp only
      refine calm_next (calm_useK _ _) fun c => ?_
      by_cases h : c.size < u32 (2 * S)
      · rw [if_pos h]
        split
        · split
          · exact calm_err (f := fun e => (some e, _))
          · exact calm_next (calm_useK _ _) fun _ => calm_pure
        · exact calm_pure
      · rw [if_neg h]
        refine calm_bind (calm_breakCluster hs cfg hi ids S batch c _) (fun r => ?_) ?_
        · cases r with
          | error e => exact calm_pure
          | ok r => exact calm_next (calm_useK _ _) fun _ => calm_pure
        · rintro _ ⟨e, rfl, he⟩
          exact ends_pure ⟨e, rfl, he⟩
  · rintro _ ⟨e, rfl, he⟩
    exact ends_pure ⟨e, rfl, he⟩

theorem calm_hiLoop (hs : spi.Steady) (cfg : Cfg) (hi : HiEnv F) (ids : HiIds) (lids : List Nat) (S : Nat) (batch : Bool) (fuel : Nat) (r : HiRun F) :
    Calm (hiLoop cfg hi spi ids lids S batch fuel r) NotOk := by
  induction fuel generalizing r with
  | zero =>
    rw [hiLoop.eq_def cfg hi spi ids lids S batch 0]
    intro w r h
    cases h
  | succ fuel ih =>
    rw [hiLoop.eq_def cfg hi spi ids lids S batch (fuel + 1)]
    dsimp only
    by_cases h : r.stack.items = 0
    · rw [if_pos h]; exact calm_pure
    · rw [if_neg h]
      refine calm_bind (calm_hiStep hs cfg hi ids lids S batch r) (fun r => ?_) ?_
      · obtain ⟨_ | e, r⟩ := r
        · exact ih r
        · exact calm_pure
      · rintro ⟨_, r⟩ ⟨e, rfl, he⟩
        exact ends_pure he

/-- All arrays of the work area are there. -/
def AllThere {α β γ δ : Type} (i1 i2 : Option α) (d : Option β) (m : Option γ) (e1 e2 : Option δ) : Prop := i1 ≠ none ∧ i2 ≠ none ∧ d ≠ none ∧ m ≠ none ∧ e1 ≠ none ∧ e2 ≠ none

theorem ends_hiWork (cfg : Cfg) (hi : HiEnv F) (S : Nat) (batch : Bool) (cl : Clustering) (stack : HiStack) (store : Blk Nat)
    (i1 i2 : Option (Blk Nat)) (d : Option (Blk F)) (m : Option (Blk Nat)) (e1 e2 : Option (Blk (Nat × F))) (h : ¬ AllThere i1 i2 d m e1 e2) :
    Ends (hiWork cfg hi spi S batch cl stack store i1 i2 d m e1 e2) NotOk := by
  unfold hiWork
  have key : ∀ {p : Clustering × Blk HiItem}, Ends (mkErr .noMemory "src/hierarchical_clustering.c" 240 >>= fun e => pure (e, p)) NotOk := fun {p} =>
    ends_err (f := fun e => (e, p)) (by show ErrorCode.noMemory ≠ .ok; decide)
  rcases i1 with _ | i1
  · exact key
  rcases i2 with _ | i2
  · exact key
  rcases d with _ | d
  · exact key
  rcases m with _ | m
  · exact key
  rcases e1 with _ | e1
  · exact key
  rcases e2 with _ | e2
  · exact key
  exact absurd ⟨nofun, nofun, nofun, nofun, nofun, nofun⟩ h

theorem calm_hiWork (hs : spi.Steady) (cfg : Cfg) (hi : HiEnv F) (S : Nat) (batch : Bool) (cl : Clustering) (stack : HiStack) (store : Blk Nat)
    (i1 i2 : Option (Blk Nat)) (d : Option (Blk F)) (m : Option (Blk Nat)) (e1 e2 : Option (Blk (Nat × F))) :
    Calm (hiWork cfg hi spi S batch cl stack store i1 i2 d m e1 e2) NotOk := by
  unfold hiWork
  rcases i1 with _ | i1
  · exact calm_err
  rcases i2 with _ | i2
  · exact calm_err
  rcases d with _ | d
  · exact calm_err
  rcases m with _ | m
  · exact calm_err
  rcases e1 with _ | e1
  · exact calm_err
  rcases e2 with _ | e2
  · exact calm_err
  dsimp only
  exact calm_bind (calm_hiLoop hs cfg hi _ _ S batch _ _) (fun _ => calm_pure) fun r hr => ends_pure hr

omit [FloatOps F] in
theorem ends_hiStackFail (c : Option (Blk HiItem)) (s : Option (Blk Nat)) (line : Nat) : Ends (hiStackFail c s line) IsErr := by
  unfold hiStackFail
  exact ends_next fun _ => ends_next fun _ => ends_fail (by decide)

omit [FloatOps F] in
theorem calm_hiStackFail (c : Option (Blk HiItem)) (s : Option (Blk Nat)) (line : Nat) : Calm (hiStackFail c s line) IsErr := by
  unfold hiStackFail
  exact calm_next (calm_freePtr _) fun _ => calm_next (calm_freePtr _) fun _ => calm_fail _ _ _ _

theorem calm_makeStack (cfg : Cfg) (hi : HiEnv F) (cl : Clustering) : Calm (makeStack cfg hi cl) IsErr := by
  unfold makeStack
  split
  · unfold emptyStack
    dsimp only
    refine calm_bind (calm_alloc _ _) (fun c => ?_) ?_
    · refine calm_bind (calm_alloc _ _) (fun s => ?_) ?_
      · rcases c with _ | c
        · exact calm_hiStackFail _ _ _
        rcases s with _ | s
        · exact calm_hiStackFail _ _ _
        exact calm_next (calm_useK _ _) fun _ => calm_next (calm_useK _ _) fun _ => calm_pure
      · rintro _ rfl
        rcases c with _ | c <;> exact ends_hiStackFail _ _ _
    · rintro _ rfl
      exact ends_next fun s => ends_hiStackFail _ _ _
  · unfold initStack
    dsimp only
    split
    · exact calm_fail _ _ _ _
    refine calm_bind (calm_alloc _ _) (fun c => ?_) ?_
    · refine calm_bind (calm_alloc _ _) (fun s => ?_) ?_
      · rcases c with _ | c
        · exact calm_hiStackFail _ _ _
        rcases s with _ | s
        · exact calm_hiStackFail _ _ _
        exact calm_next (calm_useK _ _) fun _ => calm_pure
      · rintro _ rfl
        rcases c with _ | c <;> exact ends_hiStackFail _ _ _
    · rintro _ rfl
      exact ends_next fun s => ends_hiStackFail _ _ _

/-- The end of the call. -/
theorem ends_hiMain_tail (cfg : Cfg) (hi : HiEnv F) (S : Nat) (batch : Bool) (cl : Clustering) (stack : HiStack) (store : Blk Nat)
    (i1 i2 : Option (Blk Nat)) (d : Option (Blk F)) (m : Option (Blk Nat)) (e1 e2 : Option (Blk (Nat × F))) (x : M (ErrorCode × Clustering × Blk HiItem)) (hx : Ends x NotOk) :
    Ends (do
      let (ec, cl, clusters) ← x
      freePtr i1
      freePtr i2
      freePtr d
      freePtr m
      freePtr e1
      freePtr e2
      freeId clusters.id
      freeId store.id
      pure (ec, cl) : M (ErrorCode × Clustering)) NotOk :=
  ends_bind hx fun r hr =>
    ends_next fun _ => ends_next fun _ => ends_next fun _ => ends_next fun _ => ends_next fun _ => ends_next fun _ => ends_next fun _ => ends_next fun _ => ends_pure hr

theorem calm_hiMain (hs : spi.Steady) (cfg : Cfg) (hi : HiEnv F) (S : Nat) (batch : Bool) (cl : Clustering) (stack : HiStack) (store : Blk Nat) (largest : Nat) :
    Calm (hiMain cfg hi spi S batch cl stack store largest) NotOk := by
  unfold hiMain
  have tail := fun i1 i2 d m e1 e2 h => ends_hiMain_tail cfg hi S batch cl stack store i1 i2 d m e1 e2 _ (ends_hiWork (spi := spi) cfg hi S batch cl stack store i1 i2 d m e1 e2 h)
  refine calm_bind (calm_alloc _ _) (fun i1 => ?_) ?_
  swap
  · rintro _ rfl
    exact ends_next fun _ => ends_next fun _ => ends_next fun _ => ends_next fun _ => ends_next fun _ => tail _ _ _ _ _ _ fun h => h.1 rfl
  refine calm_bind (calm_alloc _ _) (fun i2 => ?_) ?_
  swap
  · rintro _ rfl
    exact ends_next fun _ => ends_next fun _ => ends_next fun _ => ends_next fun _ => tail _ _ _ _ _ _ fun h => h.2.1 rfl
  refine calm_bind (calm_alloc _ _) (fun d => ?_) ?_
  swap
  · rintro _ rfl
    exact ends_next fun _ => ends_next fun _ => ends_next fun _ => tail _ _ _ _ _ _ fun h => h.2.2.1 rfl
  refine calm_bind (calm_alloc _ _) (fun m => ?_) ?_
  swap
  · rintro _ rfl
    exact ends_next fun _ => ends_next fun _ => tail _ _ _ _ _ _ fun h => h.2.2.2.1 rfl
  refine calm_bind (calm_alloc _ _) (fun e1 => ?_) ?_
  swap
  · rintro _ rfl
    exact ends_next fun _ => tail _ _ _ _ _ _ fun h => h.2.2.2.2.1 rfl
  refine calm_bind (calm_alloc _ _) (fun e2 => ?_) ?_
  swap
  · rintro _ rfl
    exact tail _ _ _ _ _ _ fun h => h.2.2.2.2.2 rfl
  refine calm_bind (calm_hiWork hs cfg hi S batch _ _ _ _ _ _ _ _ _) (fun r => ?_) fun r hr => ?_
  · exact calm_next (calm_freePtr _) fun _ => calm_next (calm_freePtr _) fun _ => calm_next (calm_freePtr _) fun _ => calm_next (calm_freePtr _) fun _ =>
      calm_next (calm_freePtr _) fun _ => calm_next (calm_freePtr _) fun _ => calm_next (calm_freeId _) fun _ => calm_next (calm_freeId _) fun _ => calm_pure
  · exact ends_next fun _ => ends_next fun _ => ends_next fun _ => ends_next fun _ => ends_next fun _ => ends_next fun _ => ends_next fun _ => ends_next fun _ => ends_pure hr

theorem calm_hierarchical (hs : spi.Steady) (cfg : Cfg) (hi : HiEnv F) (S : Nat) (batch : Bool) (p : Option ClObj) : Calm (hierarchical cfg hi spi S batch p) NotOk := by
  unfold hierarchical
  refine calm_next (calm_isInitialized _ _) fun ok => ?_
  cases ok with
  | false => exact calm_err
  | true =>
    cases p with
    | none => exact calm_err
    | some ob =>
      dsimp only
      cases hiArgsError spi ob.cl S with
      | some r => exact calm_err
      | none =>
        dsimp only
        refine calm_bind (A := NotOk) ?_ (fun _ => calm_next (calm_touch _) fun _ => calm_pure) fun r hr => ends_next fun _ => ends_pure hr
        unfold hiCluster
        refine calm_bind (A := fun l => l.1 = false) ?_ (fun l => ?_) ?_
        · unfold hiLabels ensureLabels
          split
          · split
            · exact calm_pure
            · refine calm_bind (calm_alloc _ _) (fun b => ?_) ?_
              · cases b <;> exact calm_pure
              · rintro _ rfl
                exact ends_pure rfl
          · exact calm_pure
        · dsimp only
          split
          · exact calm_err (f := fun e => (e, l.2))
          · refine calm_bind (calm_makeStack _ _ _) (fun st => ?_) ?_
            · cases st with
              | error e => exact calm_pure
              | ok st => exact calm_hiMain hs cfg hi S batch _ _ _ _
            · rintro _ ⟨e, rfl, he⟩
              exact ends_pure he
        · rintro ⟨_, cl⟩ rfl
          exact ends_err (f := fun e => (e, cl)) (by show ErrorCode.noMemory ≠ .ok; decide)

/-! ### Statistics -/

theorem calm_statsStep (hs : spi.Steady) (cfg : Cfg) (ids : StatIds) (sizes ends store : Buf Nat) (st : Stats F × Buf F) (c : Nat) :
    Calm (statsStep cfg spi ids sizes ends store st c) fun c => ∃ r, c = .stop r ∧ True := by
  unfold statsStep
  refine calm_next (calm_useK _ _) fun se => ?_
  dsimp only
  split
  · split <;> exact calm_pure
  · refine calm_next (calm_touch _) fun _ => calm_bind (hs.distMatrix _ _ _) (fun r => ?_) ?_
    · cases r with
      | none => exact calm_pure
      | some d => exact calm_next (calm_useK _ _) fun _ => calm_pure
    · rintro _ rfl
      exact ends_pure ⟨(), rfl, trivial⟩

theorem calm_statsRun (hs : spi.Steady) (cfg : Cfg) (cl : Clustering) (st : Stats F) (sizes store ends : Blk Nat) (scratch : Blk F) :
    Calm (statsRun cfg spi cl st sizes store ends scratch) NotOk := by
  unfold statsRun
  refine calm_next (calm_useK _ _) fun _ => calm_next (calm_useK _ _) fun es => ?_
  dsimp only
  refine calm_bind (calm_foldBM (calm_statsStep hs cfg _ _ _ _) _ _) (fun r => ?_) ?_
  · cases r with
    | stop _ => exact calm_next (calm_freeId _) fun _ => calm_next (calm_freeId _) fun _ => calm_next (calm_freeId _) fun _ => calm_next (calm_freeId _) fun _ => calm_err
    | next r => exact calm_next (calm_freeId _) fun _ => calm_next (calm_freeId _) fun _ => calm_next (calm_freeId _) fun _ => calm_next (calm_freeId _) fun _ => calm_pure
  · rintro _ ⟨r, rfl, -⟩
    exact ends_next fun _ => ends_next fun _ => ends_next fun _ => ends_next fun _ => ends_err (f := fun e => (e, none)) (by show ErrorCode.distSearch ≠ .ok; decide)

theorem calm_statsMain (hs : spi.Steady) (cfg : Cfg) (cl : Clustering) : Calm (statsMain cfg spi cl) NotOk := by
  unfold statsMain
  have err : ∀ {i : Nat} {s e : Option (Blk Nat)} {d : Option (Blk F)}, Ends (do
      freeId i
      freePtr s
      freePtr e
      freePtr d
      let e ← mkErr .noMemory "src/utilities.c" 248
      pure (e, none) : M (ErrorCode × Option (Stats F))) NotOk :=
    ends_next fun _ => ends_next fun _ => ends_next fun _ => ends_next fun _ => ends_err (f := fun e => (e, none)) (by show ErrorCode.noMemory ≠ .ok; decide)
  have errC : ∀ {i : Nat} {s e : Option (Blk Nat)} {d : Option (Blk F)}, Calm (do
      freeId i
      freePtr s
      freePtr e
      freePtr d
      let e ← mkErr .noMemory "src/utilities.c" 248
      pure (e, none) : M (ErrorCode × Option (Stats F))) NotOk :=
    calm_next (calm_freeId _) fun _ => calm_next (calm_freePtr _) fun _ => calm_next (calm_freePtr _) fun _ => calm_next (calm_freePtr _) fun _ => calm_err
  refine calm_bind (calm_alloc _ _) (fun b => ?_) ?_
  · cases b with
    | none => exact calm_err
    | some b =>
      dsimp only
      refine calm_next (calm_useK _ _) fun sizes => calm_next (calm_useK _ _) fun st => ?_
      split
      · exact calm_next (calm_freeId _) fun _ => calm_pure
      · unfold statsArrays
        refine calm_bind (calm_alloc _ _) (fun s => ?_) ?_
        · refine calm_bind (calm_alloc _ _) (fun e => ?_) ?_
          · refine calm_bind (calm_alloc _ _) (fun d => ?_) ?_
            · rcases s with _ | s
              · exact errC
              rcases e with _ | e
              · exact errC
              rcases d with _ | d
              · exact errC
              exact calm_statsRun hs cfg _ _ _ _ _ _
            · rintro _ rfl
              rcases s with _ | s
              · exact err
              rcases e with _ | e
              · exact err
              exact err
          · rintro _ rfl
            refine ends_next fun d => ?_
            rcases s with _ | s <;> exact err
        · rintro _ rfl
          exact ends_next fun e => ends_next fun d => err
  · rintro _ rfl
    exact ends_err (f := fun e => (e, none)) (by show ErrorCode.noMemory ≠ .ok; decide)

theorem calm_getStats (hs : spi.Steady) (cfg : Cfg) (p : Option ClObj) (hasOut : Bool) : Calm (getStats cfg spi p hasOut) NotOk := by
  unfold getStats
  split
  · exact calm_err
  refine calm_next (calm_isInitialized _ _) fun ok => ?_
  cases p with
  | none => exact calm_err
  | some ob =>
    cases ok with
    | false => exact calm_err
    | true =>
      dsimp only
      cases statsError spi ob.cl with
      | some r => exact calm_err
      | none => exact calm_bind (calm_statsMain hs cfg _) (fun _ => calm_pure) fun r hr => ends_pure hr

end Scc
