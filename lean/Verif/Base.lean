/-
The C semantics used by the model: undefined behaviour, buffers, loops, allocation, error state.

Nothing in this file models a particular function of the library; it fixes what the operations of C
that the library uses mean in the model, together with the proof rules for them.
-/
import Mathlib.Algebra.Order.Group.Multiset
import Mathlib.Data.Multiset.Lattice
import Mathlib.Order.Nat
import Mathlib.Tactic.Abel

namespace Scc

/-! ## Error codes and configuration -/

/-- The error codes of the public API. Models `scc_ErrorCode`, templates/scclust.h:70-95. -/
inductive ErrorCode
  | ok | unknownError | invalidInput | noMemory | noSolution | tooLarge | distSearch | notImplemented
  deriving DecidableEq, Repr

/-- Compile-time configuration of the library: the types chosen by `configure` and the platform limits.
Models `SCC_CLABEL_MAX`, `SCC_CLABEL_NA` (templates/scclust.h), `ISCC_POINTINDEX_MAX`, `ISCC_ARCINDEX_MAX`
(src/scclust_types.h), `SIZE_MAX` and `UINT_FAST16_MAX`. -/
structure Cfg where
  /-- `ISCC_POINTINDEX_MAX` -/
  pointMax : Nat
  /-- `ISCC_ARCINDEX_MAX` -/
  arcMax : Nat
  /-- `SCC_CLABEL_MAX` -/
  clabelMax : Nat
  /-- `SCC_CLABEL_NA` -/
  na : Int
  /-- `SIZE_MAX` -/
  sizeMax : Nat
  /-- `UINT_FAST16_MAX` -/
  fast16Max : Nat
  /-- whether `SCC_STABLE_FINDSEED` is defined (src/nng_findseeds.c:686-699) -/
  stableSeeds : Bool := false
  /-- whether `SCC_STABLE_NNG` is defined (src/nng_core.c:177-179 and 348-350, src/nng_batch_clustering.c:258-262) -/
  stableNng : Bool := false

/-- The constraints on the configuration that `configure` and the C standard guarantee: the NA label is
not a possible cluster label, and the `uint_fast16_t` type has at least 16 bits, `size_t` too. -/
structure Cfg.Valid (cfg : Cfg) : Prop where
  na_out : cfg.na < 0 ∨ (cfg.clabelMax : Int) ≤ cfg.na
  fast16 : 65535 ≤ cfg.fast16Max
  size : 65535 ≤ cfg.sizeMax
  clabel : 0 < cfg.clabelMax
  point : 0 < cfg.pointMax

/-- Result of 32-bit unsigned arithmetic. -/
def u32 (x : Nat) : Nat := x % 2 ^ 32

/-- Result of 64-bit unsigned arithmetic. -/
def u64 (x : Nat) : Nat := x % 2 ^ 64

/-! ## Undefined behaviour: the `Option` monad

`none` stands for undefined behaviour (or a loop bound of the model being exhausted). -/

/-- `Wp x Q`: the computation `x` has no undefined behaviour and its result satisfies `Q`. -/
def Wp {α : Type _} (x : Option α) (Q : α → Prop) : Prop := ∃ a, x = some a ∧ Q a

theorem Wp.mono {α : Type _} {x : Option α} {P Q : α → Prop} (h : Wp x P) (hpq : ∀ a, P a → Q a) : Wp x Q := by
  obtain ⟨a, ha, hp⟩ := h; exact ⟨a, ha, hpq a hp⟩

theorem Wp.bind {α β : Type _} {x : Option α} {f : α → Option β} {P : α → Prop} {Q : β → Prop}
    (h : Wp x P) (hf : ∀ a, P a → Wp (f a) Q) : Wp (x >>= f) Q := by
  obtain ⟨a, rfl, hp⟩ := h; exact hf a hp

@[simp] theorem wp_pure {α : Type _} {a : α} {Q : α → Prop} : Wp (pure a) Q ↔ Q a := by simp [Wp]
@[simp] theorem wp_some {α : Type _} {a : α} {Q : α → Prop} : Wp (some a) Q ↔ Q a := by simp [Wp]
@[simp] theorem wp_none {α : Type _} {Q : α → Prop} : Wp none Q ↔ False := by simp [Wp]
@[simp] theorem wp_bind {α β : Type _} {x : Option α} {f : α → Option β} {Q : β → Prop} :
    Wp (x >>= f) Q ↔ Wp x (fun a => Wp (f a) Q) := by
  cases x <;> simp
@[simp] theorem wp_bind' {α β : Type _} {x : Option α} {f : α → Option β} {Q : β → Prop} :
    Wp (x.bind f) Q ↔ Wp x (fun a => Wp (f a) Q) := by
  cases x <;> simp
theorem wp_of_eq {α : Type _} {x : Option α} {a : α} {Q : α → Prop} (h : x = some a) (hq : Q a) : Wp x Q := ⟨a, h, hq⟩
theorem wp_eq {α : Type _} {x : Option α} {a : α} {Q : α → Prop} (h : x = some a) : Wp x Q ↔ Q a := by subst h; simp

/-! ## Buffers -/

/-- A block of memory holding values of one type: its length and its cells. A cell holding `none` has never been
written (indeterminate value); reading it is undefined behaviour, as is any access at or beyond `len`. -/
structure Buf (α : Type) where
  len : Nat
  cell : Nat → Option α

namespace Buf
variable {α : Type}

/-- Contents of a block returned by `malloc`. -/
def raw (n : Nat) : Buf α := ⟨n, fun _ => none⟩
/-- Contents of a block returned by `calloc` (with `x` the zero value), or filled with one value. -/
def fill (n : Nat) (x : α) : Buf α := ⟨n, fun _ => some x⟩
/-- A block with the given contents. -/
def ofList (l : List α) : Buf α := ⟨l.length, fun i => l[i]?⟩
/-- Read access. -/
def get (b : Buf α) (i : Nat) : Option α := if i < b.len then b.cell i else none
/-- The buffer after storing `x` in cell `i`. -/
def upd (b : Buf α) (i : Nat) (x : α) : Buf α := ⟨b.len, fun j => if j = i then some x else b.cell j⟩
/-- Write access. -/
def set (b : Buf α) (i : Nat) (x : α) : Option (Buf α) := if i < b.len then some (b.upd i x) else none
/-- The first `n` cells, all of which must have been written. -/
def read (b : Buf α) : Nat → Option (List α)
  | 0 => some []
  | n + 1 => do let l ← b.read n; let x ← b.get n; pure (l ++ [x])
/-- Change of the block's length (`realloc`): the common prefix is kept. -/
def resize (b : Buf α) (n : Nat) : Buf α := ⟨n, fun i => if i < b.len then b.cell i else none⟩

@[simp] theorem len_raw (n : Nat) : (raw n : Buf α).len = n := rfl
@[simp] theorem len_fill (n : Nat) (x : α) : (fill n x).len = n := rfl
@[simp] theorem len_ofList (l : List α) : (ofList l).len = l.length := rfl
@[simp] theorem len_upd (b : Buf α) (i : Nat) (x : α) : (b.upd i x).len = b.len := rfl
@[simp] theorem len_resize (b : Buf α) (n : Nat) : (b.resize n).len = n := rfl
theorem get_upd (b : Buf α) (i j : Nat) (x : α) : (b.upd i x).get j = if j = i then (if i < b.len then some x else none) else b.get j := by
  unfold get upd; by_cases h : j = i <;> simp [h]
@[simp] theorem get_upd_ne (b : Buf α) {i j : Nat} (x : α) (h : j ≠ i) : (b.upd i x).get j = b.get j := by
  simp [get_upd, h]
@[simp] theorem get_upd_self (b : Buf α) {i : Nat} (x : α) (h : i < b.len) : (b.upd i x).get i = some x := by
  simp [get_upd, h]
theorem lt_of_get {b : Buf α} {i : Nat} {x : α} (h : b.get i = some x) : i < b.len := by
  unfold get at h; split at h <;> simp_all
@[simp] theorem get_fill (n i : Nat) (x : α) : (fill n x).get i = if i < n then some x else none := rfl
@[simp] theorem get_raw (n i : Nat) : (raw n : Buf α).get i = none := by unfold get raw; split <;> rfl
@[simp] theorem get_ofList (l : List α) (i : Nat) : (ofList l).get i = l[i]? := by
  unfold get ofList; split
  · rfl
  · simp_all
theorem get_resize (b : Buf α) (n i : Nat) : (b.resize n).get i = if i < n then b.get i else none := by
  unfold get resize; rfl
theorem set_eq (b : Buf α) {i : Nat} (x : α) (h : i < b.len) : b.set i x = some (b.upd i x) := by simp [set, h]
@[simp] theorem wp_set {b : Buf α} {i : Nat} {x : α} {Q : Buf α → Prop} : Wp (b.set i x) Q ↔ i < b.len ∧ Q (b.upd i x) := by
  unfold set; split <;> simp_all
theorem wp_get {b : Buf α} {i : Nat} {Q : α → Prop} : Wp (b.get i) Q ↔ ∃ x, b.get i = some x ∧ Q x := Iff.rfl

theorem read_eq_some {b : Buf α} {n : Nat} {l : List α} :
    b.read n = some l ↔ l.length = n ∧ ∀ i, i < n → b.get i = l[i]? := by
  induction n generalizing l with
  | zero =>
    simp only [read, Option.some.injEq]
    constructor
    · rintro rfl; simp
    · rintro ⟨h, -⟩; exact (List.length_eq_zero_iff.1 h).symm
  | succ n ih =>
    simp only [read]
    constructor
    · intro h
      cases hr : b.read n with
      | none => simp [hr] at h
      | some l' =>
        cases hx : b.get n with
        | none => simp [hr, hx] at h
        | some x =>
          simp only [hr, hx, Option.bind_eq_bind, Option.bind_some, Option.pure_def, Option.some.injEq] at h
          subst h
          obtain ⟨hl, hg⟩ := ih.1 hr
          refine ⟨by simp [hl], fun i hi => ?_⟩
          by_cases hin : i = n
          · subst hin; rw [hx]; simp [← hl]
          · rw [hg i (by omega), List.getElem?_append_left (by omega)]
    · rintro ⟨hl, hg⟩
      have hne : l ≠ [] := by intro h; simp [h] at hl
      obtain ⟨l', x, rfl⟩ : ∃ l' x, l = l' ++ [x] := ⟨l.dropLast, l.getLast hne, (List.dropLast_append_getLast hne).symm⟩
      have hl' : l'.length = n := by simpa using hl
      have h1 : b.read n = some l' := by
        refine ih.2 ⟨hl', fun i hi => ?_⟩
        rw [hg i (by omega), List.getElem?_append_left (by omega)]
      have h2 : b.get n = some x := by
        rw [hg n (by omega)]; simp [← hl']
      simp [h1, h2]

end Buf

/-! ## Loops -/

/-- `for (i = lo; i < hi; ++i) body`, without early exit. -/
def forLt {σ : Type} (lo hi : Nat) (s : σ) (body : Nat → σ → Option σ) : Option σ :=
  (List.range' lo (hi - lo)).foldlM (fun s i => body i s) s

/-- `for (p = lo; p != hi; ++p) body`: running past `hi` is undefined behaviour. -/
def forNe {σ : Type} (lo hi : Nat) (s : σ) (body : Nat → σ → Option σ) : Option σ :=
  if lo ≤ hi then (List.range' lo (hi - lo)).foldlM (fun s i => body i s) s else none

/-- What a loop body tells the loop: go on, or leave (`break`, or a `return` from inside). -/
inductive Ctl (σ : Type) (ρ : Type)
  | next (s : σ)
  | stop (r : ρ)

/-- A loop over a list whose body may leave early; falling off the end yields `next` of the final state. -/
def foldB {α σ ρ : Type} (f : σ → α → Option (Ctl σ ρ)) : σ → List α → Option (Ctl σ ρ)
  | s, [] => some (.next s)
  | s, a :: l => do
    match ← f s a with
    | .next s' => foldB f s' l
    | .stop r => pure (.stop r)

/-- `for (i = lo; i < hi; ++i) body` with early exit. -/
def forLtB {σ ρ : Type} (lo hi : Nat) (s : σ) (body : Nat → σ → Option (Ctl σ ρ)) : Option (Ctl σ ρ) :=
  foldB (fun s i => body i s) s (List.range' lo (hi - lo))

theorem wp_foldlM {α σ : Type} {f : σ → α → Option σ} (I : List α → σ → Prop) (l : List α) (s : σ)
    (h0 : I [] s)
    (hs : ∀ pre a post s, l = pre ++ a :: post → I pre s → Wp (f s a) (I (pre ++ [a]))) :
    Wp (l.foldlM f s) (I l) := by
  suffices H : ∀ (post pre : List α) (s : σ), l = pre ++ post → I pre s → Wp (post.foldlM f s) (I l) from H l [] s rfl h0
  intro post
  induction post with
  | nil => intro pre s hl hi; simp only [List.foldlM_nil, wp_pure]; simp at hl; subst hl; exact hi
  | cons a post ih =>
    intro pre s hl hi
    rw [List.foldlM_cons]
    refine (hs pre a post s hl hi).bind fun s' hs' => ih (pre ++ [a]) s' (by simp [hl]) hs'

theorem wp_range' {σ : Type} {body : Nat → σ → Option σ} (I : Nat → σ → Prop) (lo n : Nat) (s : σ)
    (h0 : I lo s) (hs : ∀ i s, lo ≤ i → i < lo + n → I i s → Wp (body i s) (I (i + 1))) :
    Wp ((List.range' lo n).foldlM (fun s i => body i s) s) (I (lo + n)) := by
  induction n generalizing lo s with
  | zero => simpa using h0
  | succ n ih =>
    rw [List.range'_succ, List.foldlM_cons]
    refine (hs lo s le_rfl (by omega) h0).bind fun s' h' => ?_
    have := ih (lo + 1) s' h' (fun i s h1 h2 hi => hs i s (by omega) (by omega) hi)
    rwa [show lo + 1 + n = lo + (n + 1) by omega] at this

theorem wp_forLt {σ : Type} {body : Nat → σ → Option σ} (I : Nat → σ → Prop) {lo hi : Nat} {s : σ} {Q : σ → Prop}
    (hle : lo ≤ hi) (h0 : I lo s) (hs : ∀ i s, lo ≤ i → i < hi → I i s → Wp (body i s) (I (i + 1)))
    (hq : ∀ s, I hi s → Q s) : Wp (forLt lo hi s body) Q := by
  have := wp_range' (body := body) I lo (hi - lo) s h0 (fun i s h1 h2 => hs i s h1 (by omega))
  rw [show lo + (hi - lo) = hi by omega] at this
  exact this.mono hq

theorem wp_forNe {σ : Type} {body : Nat → σ → Option σ} (I : Nat → σ → Prop) {lo hi : Nat} {s : σ} {Q : σ → Prop}
    (hle : lo ≤ hi) (h0 : I lo s) (hs : ∀ i s, lo ≤ i → i < hi → I i s → Wp (body i s) (I (i + 1)))
    (hq : ∀ s, I hi s → Q s) : Wp (forNe lo hi s body) Q := by
  unfold forNe; rw [if_pos hle]; exact wp_forLt I hle h0 hs hq

/-- Loop rule with early exit: `I` holds at each iteration; `R` is established on early exit. -/
theorem wp_foldB_range' {σ ρ : Type} {body : Nat → σ → Option (Ctl σ ρ)} (I : Nat → σ → Prop) (R : ρ → Prop) (lo n : Nat) (s : σ)
    (h0 : I lo s)
    (hs : ∀ i s, lo ≤ i → i < lo + n → I i s → Wp (body i s) (fun c => match c with | .next s' => I (i + 1) s' | .stop r => R r)) :
    Wp (foldB (fun s i => body i s) s (List.range' lo n)) (fun c => match c with | .next s' => I (lo + n) s' | .stop r => R r) := by
  induction n generalizing lo s with
  | zero => simpa [foldB] using h0
  | succ n ih =>
    rw [List.range'_succ, foldB]
    refine (hs lo s le_rfl (by omega) h0).bind fun c hc => ?_
    cases c with
    | stop r => simpa using hc
    | next s' =>
      have := ih (lo + 1) s' hc (fun i s h1 h2 hi => hs i s (by omega) (by omega) hi)
      rwa [show lo + 1 + n = lo + (n + 1) by omega] at this

theorem wp_forLtB {σ ρ : Type} {body : Nat → σ → Option (Ctl σ ρ)} (I : Nat → σ → Prop) (R : ρ → Prop) {lo hi : Nat} {s : σ}
    {Q : Ctl σ ρ → Prop} (hle : lo ≤ hi) (h0 : I lo s)
    (hs : ∀ i s, lo ≤ i → i < hi → I i s → Wp (body i s) (fun c => match c with | .next s' => I (i + 1) s' | .stop r => R r))
    (hq1 : ∀ s, I hi s → Q (.next s)) (hq2 : ∀ r, R r → Q (.stop r)) : Wp (forLtB lo hi s body) Q := by
  have := wp_foldB_range' (body := body) I R lo (hi - lo) s h0 (fun i s h1 h2 => hs i s h1 (by omega))
  rw [show lo + (hi - lo) = hi by omega] at this
  refine this.mono fun c hc => ?_
  cases c with
  | next s => exact hq1 s hc
  | stop r => exact hq2 r hc

/-! ## The world: allocation and error state -/

/-- The static error record of the library. Models the statics of src/error.c:32-35. -/
structure ErrInfo where
  code : ErrorCode
  msg : Option String
  file : String
  line : Int
  deriving DecidableEq

/-- The initial error record. Models src/error.c:32-35. -/
def ErrInfo.none : ErrInfo := ⟨.ok, .none, "unknown file", -1⟩

/-- The state outside the values a function works on: the schedule of allocation failures (a request made when the counter is `i` fails
iff `fails i c`, where `c` says whether the code checks the result of that request), a counter that grows with each request, the live
heap blocks, and the library's error record. The flag `c` has no meaning in C; it only lets theorems speak about the schedules in which
the few requests that the code does not check succeed. -/
structure World where
  fails : Nat → Bool → Bool
  clock : Nat
  live : Multiset Nat
  err : ErrInfo

/-- Computations of the library that allocate or raise errors. `none` is undefined behaviour. -/
abbrev M := StateT World Option

/-- `WpM x w Q`: from `w` the computation `x` has no undefined behaviour, and its result and final world satisfy `Q`. -/
def WpM {α : Type} (x : M α) (w : World) (Q : α → World → Prop) : Prop := ∃ a w', x w = some (a, w') ∧ Q a w'

theorem WpM.mono {α : Type} {x : M α} {w : World} {P Q : α → World → Prop} (h : WpM x w P) (hpq : ∀ a w, P a w → Q a w) : WpM x w Q := by
  obtain ⟨a, w', ha, hp⟩ := h; exact ⟨a, w', ha, hpq _ _ hp⟩

@[simp] theorem wpM_pure {α : Type} {a : α} {w : World} {Q : α → World → Prop} : WpM (pure a) w Q ↔ Q a w := by
  simp [WpM, pure, StateT.pure]
@[simp] theorem wpM_bind {α β : Type} {x : M α} {f : α → M β} {w : World} {Q : β → World → Prop} :
    WpM (x >>= f) w Q ↔ WpM x w (fun a w' => WpM (f a) w' Q) := by
  unfold WpM
  show (∃ a w', (StateT.bind x f) w = some (a, w') ∧ Q a w') ↔ _
  unfold StateT.bind
  cases h : x w with
  | none => simp
  | some p => obtain ⟨a, w'⟩ := p; simp

theorem WpM.bind {α β : Type} {x : M α} {f : α → M β} {w : World} {P : α → World → Prop} {Q : β → World → Prop}
    (h : WpM x w P) (hf : ∀ a w', P a w' → WpM (f a) w' Q) : WpM (x >>= f) w Q := by
  rw [wpM_bind]; exact h.mono hf

/-- Run a computation on buffers that belong to the listed blocks: using a block that is not live is undefined behaviour. -/
def useK {α : Type} (ids : List Nat) (k : Option α) : M α := fun w =>
  if ∀ i ∈ ids, i ∈ w.live then k.map (fun a => (a, w)) else none

@[simp] theorem wpM_useK {α : Type} {ids : List Nat} {k : Option α} {w : World} {Q : α → World → Prop} :
    WpM (useK ids k) w Q ↔ (∀ i ∈ ids, i ∈ w.live) ∧ Wp k (fun a => Q a w) := by
  unfold WpM useK Wp
  constructor
  · rintro ⟨a, w', h, hq⟩
    split at h
    · rename_i hl
      cases k with
      | none => simp at h
      | some b => simp at h; obtain ⟨rfl, rfl⟩ := h; exact ⟨hl, b, rfl, hq⟩
    · simp at h
  · rintro ⟨hl, a, rfl, hq⟩
    exact ⟨a, w, by rw [if_pos hl]; rfl, hq⟩

/-- A heap block: its identity and its contents. -/
structure Blk (α : Type) where
  id : Nat
  buf : Buf α

/-- The name of the next block: different from all live blocks, and from all blocks that were allocated before. -/
def World.fresh (w : World) : Nat := max w.clock (w.live.map (· + 1)).sup

/-- `malloc`: NULL (`none`) when the schedule says so, otherwise a fresh block with the given initial contents
(`Buf.raw` for `malloc`, `Buf.fill` for `calloc`). `checked` says whether the code handles a NULL result. -/
def alloc {α : Type} (init : Buf α) (checked : Bool := true) : M (Option (Blk α)) := fun w =>
  if w.fails w.clock checked then some (none, { w with clock := w.clock + 1 })
  else some (some ⟨w.fresh, init⟩, { w with clock := w.fresh + 1, live := {w.fresh} + w.live })

/-- `free` of a non-NULL pointer: freeing a block that is not live is undefined behaviour. -/
def freeId (i : Nat) : M Unit := fun w =>
  if i ∈ w.live then some ((), { w with live := w.live.erase i }) else none

/-- `free`: freeing NULL does nothing. -/
def freePtr {α : Type} : Option (Blk α) → M Unit
  | none => pure ()
  | some b => freeId b.id

/-- `realloc` of a live block: on failure NULL is returned and the old block stays. A new size of zero counts as undefined behaviour (implementations may free the block and
return NULL, which cannot be told from a failure). -/
def reallocBlk {α : Type} (b : Blk α) (n : Nat) : M (Option (Blk α)) := fun w =>
  if b.id ∈ w.live ∧ 0 < n then
    if w.fails w.clock true then some (none, { w with clock := w.clock + 1 })
    else some (some ⟨w.fresh, b.buf.resize n⟩, { w with clock := w.fresh + 1, live := {w.fresh} + w.live.erase b.id })
  else none

/-- Raise an error. Models `iscc_make_error__`, src/error.c:42-55 (through the macros in src/error.h). -/
def mkErr (ec : ErrorCode) (file : String) (line : Nat) (msg : Option String := none) : M ErrorCode := fun w =>
  some (ec, { w with err := ⟨ec, msg, file, line⟩ })

/-- Reset the error record. Models `iscc_reset_error`, src/error.c:58-64. -/
def resetErr : M Unit := fun w => some ((), { w with err := ErrInfo.none })

/-- Multiset of blocks behind a pointer. -/
def ptrOwn {α : Type} : Option (Blk α) → Multiset Nat
  | none => 0
  | some b => {b.id}

@[simp] theorem ptrOwn_none {α : Type} : ptrOwn (none : Option (Blk α)) = 0 := rfl
@[simp] theorem ptrOwn_some {α : Type} (b : Blk α) : ptrOwn (some b) = {b.id} := rfl

/-- No allocation ever fails in this world. -/
def World.NoFail (w : World) : Prop := ∀ i c, w.fails i c = false

/-- No allocation whose result the code does not check fails in this world. -/
def World.UncheckedOk (w : World) : Prop := ∀ i, w.fails i false = false

theorem wpM_alloc {α : Type} {init : Buf α} {c : Bool} {w : World} {Q : Option (Blk α) → World → Prop}
    (h0 : ∀ w', ¬ w.NoFail → w'.fails = w.fails → w'.live = w.live → w'.err = w.err → Q none w')
    (h1 : ∀ i w', w'.fails = w.fails → w'.live = {i} + w.live → w'.err = w.err → Q (some ⟨i, init⟩) w') :
    WpM (alloc init c) w Q := by
  unfold alloc WpM
  cases h : w.fails w.clock c
  · exact ⟨some ⟨w.fresh, init⟩, { w with clock := w.fresh + 1, live := {w.fresh} + w.live },
      if_neg (by simp [h]), h1 _ _ rfl rfl rfl⟩
  · exact ⟨none, { w with clock := w.clock + 1 }, if_pos h, h0 _ (fun hn => by simp [hn w.clock] at h) rfl rfl rfl⟩

theorem World.lt_fresh {w : World} {i : Nat} (h : i ∈ w.live) : i < w.fresh :=
  lt_of_lt_of_le (Nat.lt_succ_self i) ((Multiset.le_sup (Multiset.mem_map_of_mem _ h)).trans (le_max_right _ _))

/-- The rule for allocation that also says that the new block is none of the live blocks. -/
theorem wpM_allocF {α : Type} {init : Buf α} {c : Bool} {w : World} {Q : Option (Blk α) → World → Prop}
    (h0 : ∀ w', ¬ w.NoFail → w'.fails = w.fails → w'.live = w.live → w'.err = w.err → Q none w')
    (h1 : ∀ i w', i ∉ w.live → w'.fails = w.fails → w'.live = {i} + w.live → w'.err = w.err → Q (some ⟨i, init⟩) w') :
    WpM (alloc init c) w Q := by
  unfold alloc WpM
  cases h : w.fails w.clock c
  · exact ⟨some ⟨w.fresh, init⟩, { w with clock := w.fresh + 1, live := {w.fresh} + w.live },
      if_neg (by simp [h]), h1 _ _ (fun hm => lt_irrefl _ (World.lt_fresh hm)) rfl rfl rfl⟩
  · exact ⟨none, { w with clock := w.clock + 1 }, if_pos h, h0 _ (fun hn => by simp [hn w.clock] at h) rfl rfl rfl⟩

/-- An allocation whose result the code does not check, in a world where these succeed. -/
theorem wpM_allocU {α : Type} {init : Buf α} {w : World} {Q : Option (Blk α) → World → Prop} (hu : w.UncheckedOk)
    (h1 : ∀ i w', w'.fails = w.fails → w'.live = {i} + w.live → w'.err = w.err → Q (some ⟨i, init⟩) w') :
    WpM (alloc init false) w Q := by
  unfold alloc WpM
  exact ⟨some ⟨w.fresh, init⟩, { w with clock := w.fresh + 1, live := {w.fresh} + w.live },
      if_neg (by simp [hu w.clock]), h1 _ _ rfl rfl rfl⟩

theorem wpM_freeId {i : Nat} {w : World} {Q : Unit → World → Prop} (L : Multiset Nat)
    (hl : w.live = {i} + L) (hq : ∀ w', w'.fails = w.fails → w'.live = L → w'.err = w.err → Q () w') : WpM (freeId i) w Q := by
  unfold freeId WpM
  refine ⟨(), { w with live := L }, ?_, hq _ rfl rfl rfl⟩
  simp [hl]

theorem wpM_freePtr {α : Type} {p : Option (Blk α)} {w : World} {Q : Unit → World → Prop} (L : Multiset Nat)
    (hl : w.live = ptrOwn p + L) (hq : ∀ w', w'.fails = w.fails → w'.live = L → w'.err = w.err → Q () w') : WpM (freePtr p) w Q := by
  cases p with
  | none => simp only [freePtr, wpM_pure]; simp at hl; exact hq w rfl hl rfl
  | some b => exact wpM_freeId L hl hq

theorem wpM_realloc {α : Type} {b : Blk α} {n : Nat} {w : World} {Q : Option (Blk α) → World → Prop} (L : Multiset Nat)
    (hl : w.live = {b.id} + L) (hn : 0 < n)
    (h0 : ∀ w', ¬ w.NoFail → w'.fails = w.fails → w'.live = w.live → w'.err = w.err → Q none w')
    (h1 : ∀ i w', w'.fails = w.fails → w'.live = {i} + L → w'.err = w.err → Q (some ⟨i, b.buf.resize n⟩) w') :
    WpM (reallocBlk b n) w Q := by
  unfold reallocBlk WpM
  have hm : b.id ∈ w.live := by simp [hl]
  cases h : w.fails w.clock true
  · refine ⟨some ⟨w.fresh, b.buf.resize n⟩, { w with clock := w.fresh + 1, live := {w.fresh} + L }, ?_, h1 _ _ rfl rfl rfl⟩
    simp [hl, h, hn]
  · refine ⟨none, { w with clock := w.clock + 1 }, ?_, h0 _ (fun hn => by simp [hn w.clock] at h) rfl rfl rfl⟩
    simp [hm, h, hn]

theorem wpM_mkErr {ec : ErrorCode} {f : String} {l : Nat} {m : Option String} {w : World} {Q : ErrorCode → World → Prop}
    (hq : ∀ w', w'.fails = w.fails → w'.live = w.live → w'.err = ⟨ec, m, f, l⟩ → Q ec w') :
    WpM (mkErr ec f l m) w Q := ⟨_, _, rfl, hq _ rfl rfl rfl⟩
theorem wpM_resetErr {w : World} {Q : Unit → World → Prop}
    (hq : ∀ w', w'.fails = w.fails → w'.live = w.live → w'.err = ErrInfo.none → Q () w') :
    WpM resetErr w Q := ⟨_, _, rfl, hq _ rfl rfl rfl⟩

/-- A failing function: raise the error and hand back the error code as the result. -/
def fail {α : Type} (ec : ErrorCode) (file : String) (line : Nat) (msg : Option String := none) : M (Except ErrorCode α) := do
  let e ← mkErr ec file line msg
  pure (.error e)

theorem wpM_fail {α : Type} {ec : ErrorCode} {f : String} {l : Nat} {m : Option String} {w : World} {Q : Except ErrorCode α → World → Prop}
    (hq : ∀ w', w'.fails = w.fails → w'.live = w.live → w'.err = ⟨ec, m, f, l⟩ → Q (.error ec) w') :
    WpM (fail ec f l m) w Q := by
  unfold fail; rw [wpM_bind]; refine wpM_mkErr fun w' h1 h2 h3 => ?_; rw [wpM_pure]; exact hq w' h1 h2 h3

/-! ## Loops in `M` -/

/-- A loop over a list in `M` whose body may leave early. -/
def foldBM {α σ ρ : Type} (f : σ → α → M (Ctl σ ρ)) : σ → List α → M (Ctl σ ρ)
  | s, [] => pure (.next s)
  | s, a :: l => do
    match ← f s a with
    | .next s' => foldBM f s' l
    | .stop r => pure (.stop r)

/-- Loop rule: `I` holds between iterations, `R` on early exit. -/
theorem wpM_foldBM {α σ ρ : Type} {f : σ → α → M (Ctl σ ρ)} (I : List α → σ → World → Prop) (R : ρ → World → Prop) (l : List α) (s : σ) (w : World)
    (h0 : I [] s w)
    (hs : ∀ pre a post s w, l = pre ++ a :: post → I pre s w →
      WpM (f s a) w (fun c w' => match c with | .next s' => I (pre ++ [a]) s' w' | .stop r => R r w')) :
    WpM (foldBM f s l) w (fun c w' => match c with | .next s' => I l s' w' | .stop r => R r w') := by
  suffices H : ∀ (post pre : List α) (s : σ) (w : World), l = pre ++ post → I pre s w →
      WpM (foldBM f s post) w (fun c w' => match c with | .next s' => I l s' w' | .stop r => R r w') from H l [] s w rfl h0
  intro post
  induction post with
  | nil => intro pre s w hl hi; simp at hl; subst hl; simpa [foldBM] using hi
  | cons a post ih =>
    intro pre s w hl hi
    rw [foldBM, wpM_bind]
    refine (hs pre a post s w hl hi).mono fun c w' hc => ?_
    cases c with
    | stop r => simpa using hc
    | next s' => exact ih (pre ++ [a]) s' w' (by simp [hl]) hc

/-- Loop rule for a loop in `M` without early exit. -/
theorem wpM_foldlM {α σ : Type} {f : σ → α → M σ} (I : List α → σ → World → Prop) (l : List α) (s : σ) (w : World)
    (h0 : I [] s w)
    (hs : ∀ pre a post s w, l = pre ++ a :: post → I pre s w → WpM (f s a) w (I (pre ++ [a]))) :
    WpM (l.foldlM f s) w (I l) := by
  suffices H : ∀ (post pre : List α) (s : σ) (w : World), l = pre ++ post → I pre s w →
      WpM (post.foldlM f s) w (I l) from H l [] s w rfl h0
  intro post
  induction post with
  | nil => intro pre s w hl hi; simp at hl; subst hl; simpa using hi
  | cons a post ih =>
    intro pre s w hl hi
    rw [List.foldlM_cons, wpM_bind]
    exact (hs pre a post s w hl hi).mono fun s' w' h' => ih (pre ++ [a]) s' w' (by simp [hl]) h'

end Scc
