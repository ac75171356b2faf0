/-
Calls never make an entry of a label array indeterminate that was determinate before, whether they succeed or fail, and never change the length of the array.
-/
import Verif.Model.Hierarchical

set_option linter.unusedSimpArgs false
set_option linter.unusedVariables false

namespace Scc

variable {F : Type} [FloatOps F]

/-! ### Partial correctness -/

/-- If the computation has a result, it satisfies `Q`. -/
def ParK {α : Type} (x : Option α) (Q : α → Prop) : Prop := ∀ a, x = some a → Q a

/-- The same for computations on the heap. -/
def Par {α : Type} (x : M α) (Q : α → Prop) : Prop := ∀ w a w', x w = some (a, w') → Q a

theorem ParK.any {α : Type} (x : Option α) : ParK x fun _ => True := fun _ _ => trivial

theorem Par.any {α : Type} (x : M α) : Par x fun _ => True := fun _ _ _ _ => trivial

theorem ParK.pure {α : Type} {a : α} {Q : α → Prop} (h : Q a) : ParK (Pure.pure a) Q := by
  intro b hb
  cases hb
  exact h

theorem ParK.bind {α β : Type} {x : Option α} {f : α → Option β} {P : α → Prop} {Q : β → Prop} (h : ParK x P) (hf : ∀ a, P a → ParK (f a) Q) : ParK (x >>= f) Q := by
  intro b hb
  obtain ⟨a, ha, hb⟩ := Option.bind_eq_some_iff.1 hb
  exact hf a (h a ha) b hb

theorem ParK.skip {α β : Type} {x : Option α} {f : α → Option β} {Q : β → Prop} (hf : ∀ a, ParK (f a) Q) : ParK (x >>= f) Q := (ParK.any x).bind fun a _ => hf a

theorem Par.pure {α : Type} {a : α} {Q : α → Prop} (h : Q a) : Par (Pure.pure a) Q := by
  intro w b w' hb
  cases hb
  exact h

theorem Par.bind {α β : Type} {x : M α} {f : α → M β} {P : α → Prop} {Q : β → Prop} (h : Par x P) (hf : ∀ a, P a → Par (f a) Q) : Par (x >>= f) Q := by
  intro w b w' hb
  obtain ⟨⟨a, w1⟩, ha, hb⟩ := Option.bind_eq_some_iff.1 hb
  exact hf a (h w a w1 ha) w1 b w' hb

theorem Par.skip {α β : Type} {x : M α} {f : α → M β} {Q : β → Prop} (hf : ∀ a, Par (f a) Q) : Par (x >>= f) Q := (Par.any x).bind fun a _ => hf a

theorem Par.useK {α : Type} {ids : List Nat} {k : Option α} {Q : α → Prop} (h : ParK k Q) : Par (Scc.useK ids k) Q := by
  intro w a w' hb
  unfold Scc.useK at hb
  split at hb
  · obtain ⟨x, hx, e⟩ := Option.map_eq_some_iff.1 hb
    cases e
    exact h _ hx
  · cases hb

theorem parK_foldlM {α σ : Type} {f : σ → α → Option σ} {I : σ → Prop} (hf : ∀ s a, I s → ParK (f s a) I) (l : List α) : ∀ s, I s → ParK (l.foldlM f s) I := by
  induction l with
  | nil => intro s hs; rw [List.foldlM_nil]; exact ParK.pure hs
  | cons a l ih => intro s hs; rw [List.foldlM_cons]; exact (hf s a hs).bind fun s' hs' => ih s' hs'

theorem parK_forLt {σ : Type} {lo hi : Nat} {s : σ} {body : Nat → σ → Option σ} {I : σ → Prop} (hs : I s) (hf : ∀ i s, I s → ParK (body i s) I) : ParK (forLt lo hi s body) I :=
  parK_foldlM (fun s i h => hf i s h) _ s hs

theorem parK_forNe {σ : Type} {lo hi : Nat} {s : σ} {body : Nat → σ → Option σ} {I : σ → Prop} (hs : I s) (hf : ∀ i s, I s → ParK (body i s) I) : ParK (forNe lo hi s body) I := by
  unfold forNe
  split
  · exact parK_foldlM (fun s i h => hf i s h) _ s hs
  · exact nofun

/-- What holds of the state of a loop that may be left early. -/
def CtlP {σ ρ : Type} (I : σ → Prop) (R : ρ → Prop) : Ctl σ ρ → Prop
  | .next s => I s
  | .stop r => R r

theorem parK_forLtB {σ ρ : Type} {lo hi : Nat} {s : σ} {body : Nat → σ → Option (Ctl σ ρ)} {I : σ → Prop} {R : ρ → Prop} (hs : I s) (hf : ∀ i s, I s → ParK (body i s) (CtlP I R)) :
    ParK (forLtB lo hi s body) (CtlP I R) := by
  unfold forLtB
  generalize List.range' lo (hi - lo) = l
  induction l generalizing s with
  | nil => exact ParK.pure hs
  | cons a l ih =>
    unfold foldB
    refine (hf a s hs).bind fun c hc => ?_
    cases c with
    | next s' => exact ih hc
    | stop r => exact ParK.pure hc

/-! ### Label arrays -/

/-- The array `b'` is as long as `b`, and has entries wherever `b` has. -/
structure Grows (b b' : Buf Int) : Prop where
  len : b'.len = b.len
  get : ∀ v, (∃ l, b.get v = some l) → ∃ l, b'.get v = some l

theorem Grows.refl (b : Buf Int) : Grows b b := ⟨rfl, fun _ h => h⟩

theorem Grows.trans {a b c : Buf Int} (h : Grows a b) (h' : Grows b c) : Grows a c := ⟨h'.len.trans h.len, fun v hv => h'.get v (h.get v hv)⟩

theorem grows_set {b0 b : Buf Int} (h : Grows b0 b) (i : Nat) (x : Int) : ParK (b.set i x) (Grows b0) := by
  intro b' hb
  unfold Buf.set at hb
  split at hb
  · cases hb
    refine h.trans ⟨rfl, fun v hv => ?_⟩
    by_cases e : v = i
    · subst e; exact ⟨x, Buf.get_upd_self _ _ (by assumption)⟩
    · rw [Buf.get_upd_ne _ _ e]; exact hv
  · cases hb

theorem grows_assignSeeds {cfg : Cfg} {n count : Nat} {seeds head tail : Buf Nat} {b0 b : Buf Int} (h : Grows b0 b) :
    ParK (assignSeeds cfg n count seeds head tail b) fun r => Grows b0 r.1 := by
  unfold assignSeeds
  refine (parK_forLt h fun i l hl => grows_set hl _ _).bind fun l hl => ?_
  refine parK_forNe (I := fun r : Buf Int × Nat => Grows b0 r.1) hl ?_
  rintro s ⟨l, num⟩ hl
  refine .skip fun seed => ?_
  refine ParK.bind (P := Grows b0) ?_ fun l' hl' => ?_
  · unfold rowLoop
    refine .skip fun _ => .skip fun _ => parK_forNe hl fun i s hs => .skip fun a => grows_set hs _ _
  · exact .skip fun _ => .skip fun _ => .skip fun _ => (grows_set hl' _ _).bind fun l'' hl'' => ParK.pure hl''

theorem grows_assignByNngK {n : Nat} {head tail : Buf Nat} {scratch : Buf Bool} {b0 b : Buf Int} (h : Grows b0 b) :
    ParK (assignByNngK n head tail scratch b) fun r => Grows b0 r.1 := by
  unfold assignByNngK
  refine parK_forLt (I := fun r : Buf Int × Nat => Grows b0 r.1) h ?_
  rintro i ⟨l, num⟩ hl
  refine .skip fun u => ?_
  split
  · refine .skip fun r => ?_
    cases r with
    | none => exact ParK.pure hl
    | some a => exact .skip fun _ => (grows_set hl _ _).bind fun l' hl' => ParK.pure hl'
  · exact ParK.pure hl

theorem grows_copyFromNN {numOk : Nat} {okq nn : Buf Nat} {b0 b : Buf Int} (h : Grows b0 b) : ParK (copyFromNN numOk okq nn b) (Grows b0) :=
  parK_forLt h fun i l hl => .skip fun _ => .skip fun _ => .skip fun _ => grows_set hl _ _

theorem grows_assignByNng {cfg : Cfg} {n : Nat} {nng : Digraph} {id : Nat} {b0 b : Buf Int} (h : Grows b0 b) : Par (assignByNng cfg n nng (some ⟨id, b⟩)) fun r => Grows b0 r.1 := by
  unfold assignByNng
  refine .skip fun p => ?_
  cases p with
  | none => exact .skip fun _ => Par.pure h
  | some s => exact .skip fun _ => (Par.useK (grows_assignByNngK h)).bind fun r hr => .skip fun _ => Par.pure hr

theorem grows_assignBySearch {spi : Spi F} {o : spi.NN} {id num : Nat} {b0 b : Buf Int} {ta : Blk Nat} {rs : Bool} {radius : F} (h : Grows b0 b) :
    Par (assignBySearch spi o (some ⟨id, b⟩) num ta rs radius) fun r => Grows b0 r.2.1 := by
  unfold assignBySearch
  refine .skip fun p => .skip fun _ => .skip fun r => ?_
  cases r with
  | none => exact .skip fun _ => .skip fun _ => Par.pure h
  | some r => exact (Par.useK (grows_copyFromNN h)).bind fun l hl => .skip fun _ => Par.pure hl

theorem grows_assignUnassigned {spi : Spi F} {oa os : Option spi.NN} {um : UnassignedMethod} {id num : Nat} {b0 b : Buf Int} {ta : Blk Nat} {rs : Bool} {radius : F} (h : Grows b0 b) :
    Par (assignUnassigned spi oa os um (some ⟨id, b⟩) num ta rs radius) fun r => Grows b0 r.2.1 := by
  unfold assignUnassigned
  split
  · split
    · exact .skip fun _ => grows_assignBySearch h
    · split
      · exact .skip fun _ => grows_assignBySearch h
      · exact Par.pure h
  · exact Par.pure h

theorem grows_secondRound {cfg : Cfg} {spi : Spi F} {oa os : Option spi.NN} {um : UnassignedMethod} {n id : Nat} {b0 b : Buf Int} {ta : Blk Nat} {rs : Bool} {radius : F} (h : Grows b0 b) :
    Par (secondRound cfg spi oa os um n (some ⟨id, b⟩) ta rs radius) (Grows b0) := by
  unfold secondRound
  split
  · exact .skip fun _ => (grows_assignUnassigned h).bind fun r hr => Par.pure hr
  · exact Par.pure h

/-- A pointer to the label array `id`, with contents that grew from `b0`. -/
def GrownTo (id : Nat) (b0 : Buf Int) (p : Option (Blk Int)) : Prop := ∃ b, p = some ⟨id, b⟩ ∧ Grows b0 b

theorem grows_searchRounds {cfg : Cfg} {spi : Spi F} {n id : Nat} {b0 b : Buf Int} {son : Option (Blk Nat)} {oa os : Option spi.NN} {ta : Blk Nat} {um : UnassignedMethod} {rs : Bool} {radius : F}
    {lenPrimary : Nat} {primary : Option (Buf Nat)} {um2 : UnassignedMethod} {rs2 : Bool} {radius2 : F} (h : Grows b0 b) :
    Par (searchRounds cfg spi n (some ⟨id, b⟩) son oa os ta um rs radius lenPrimary primary um2 rs2 radius2) fun r => GrownTo id b0 r.2 := by
  unfold searchRounds
  refine .skip fun c => (grows_assignUnassigned h).bind ?_
  rintro ⟨ec, l, c'⟩ hl
  dsimp only at hl ⊢
  split
  · exact .skip fun _ => Par.pure ⟨l, rfl, hl⟩
  · exact (grows_secondRound (id := id) hl).bind fun l' hl' => .skip fun _ => Par.pure ⟨l', rfl, hl'⟩

theorem grows_assignRemaining {cfg : Cfg} {spi : Spi F} {n total numSon id : Nat} {b0 b : Buf Int} {son : Option (Blk Nat)} {sr : SeedResult} {um : UnassignedMethod} {rs : Bool} {radius : F}
    {lenPrimary : Nat} {primary : Option (Buf Nat)} {um2 : UnassignedMethod} {rs2 : Bool} {radius2 : F} (h : Grows b0 b) :
    Par (assignRemaining cfg spi n total numSon (some ⟨id, b⟩) son sr um rs radius lenPrimary primary um2 rs2 radius2) fun r => GrownTo id b0 r.2 := by
  unfold assignRemaining
  refine .skip fun oa => ?_
  cases oa with
  | error ec => exact .skip fun _ => Par.pure ⟨b, rfl, h⟩
  | ok oa =>
    refine .skip fun os => ?_
    cases os with
    | error ec => exact .skip fun _ => .skip fun _ => Par.pure ⟨b, rfl, h⟩
    | ok os =>
      refine .skip fun ta => ?_
      cases ta with
      | none => exact .skip fun _ => .skip fun _ => .skip fun _ => .skip fun _ => Par.pure ⟨b, rfl, h⟩
      | some ta => exact grows_searchRounds h

/-- The clustering `cl'` has the points and the label array of `cl`, whose contents grew. -/
structure Kept (cl cl' : Clustering) : Prop where
  points : cl'.n = cl.n
  old : ∀ lb, cl.label = some lb → GrownTo lb.id lb.buf cl'.label ∧ cl'.external = cl.external
  new : cl.label = none → cl'.label = none ∨ cl'.external = false

theorem Kept.refl (cl : Clustering) : Kept cl cl := ⟨rfl, fun lb h => ⟨⟨lb.buf, h, Grows.refl _⟩, rfl⟩, fun h => Or.inl h⟩

/-- The same for a clustering that has a label array. -/
structure KeptIn (id : Nat) (b0 : Buf Int) (cl cl' : Clustering) : Prop where
  points : cl'.n = cl.n
  label : GrownTo id b0 cl'.label
  external : cl'.external = cl.external

theorem grows_makeClusters {cfg : Cfg} {spi : Spi F} {cl : Clustering} {id : Nat} {b : Buf Int} (hl : cl.label = some ⟨id, b⟩) {sr : SeedResult} {nng : Digraph} {ordered : Bool} {um : UnassignedMethod}
    {rs : Bool} {radius : F} {lenPrimary : Nat} {primary : Option (Buf Nat)} {um2 : UnassignedMethod} {rs2 : Bool} {radius2 : F} :
    Par (makeClusters cfg spi cl sr nng ordered um rs radius lenPrimary primary um2 rs2 radius2) fun r => KeptIn id b cl r.2.1 := by
  unfold makeClusters
  rw [hl]
  refine (Par.useK (grows_assignSeeds (Grows.refl b))).bind ?_
  rintro ⟨l, num⟩ h
  dsimp only at h ⊢
  have k1 : GrownTo id b (ptrSet (some ⟨id, b⟩) l) := ⟨l, rfl, h⟩
  split
  · exact Par.pure ⟨rfl, k1, rfl⟩
  · refine .skip fun son => ?_
    cases son with
    | error ec => exact Par.pure ⟨rfl, k1, rfl⟩
    | ok son =>
      dsimp only
      split
      · refine (grows_assignByNng (id := id) h).bind ?_
        rintro ⟨l', num'⟩ h'
        dsimp only at h' ⊢
        have k2 : GrownTo id b (ptrSet (ptrSet (some ⟨id, b⟩) l) l') := ⟨l', rfl, h'⟩
        split
        · exact .skip fun _ => Par.pure ⟨rfl, k2, rfl⟩
        · refine .skip fun _ => (grows_assignRemaining (id := id) h').bind ?_
          rintro ⟨ec, p⟩ hp
          exact Par.pure ⟨rfl, hp, rfl⟩
      · refine .skip fun _ => (grows_assignRemaining (id := id) h).bind ?_
        rintro ⟨ec, p⟩ hp
        exact Par.pure ⟨rfl, hp, rfl⟩

/-- After the label array has been allocated if there was none. -/
theorem kept_ensureLabels (cl : Clustering) : Par (ensureLabels cl) fun r => r.2.n = cl.n ∧ r.2.numClusters = cl.numClusters ∧
    ((∃ lb, cl.label = some lb ∧ r = (true, cl)) ∨ cl.label = none ∧ r.2.external = false ∧ (r.1 = true → r.2.label ≠ none)) := by
  unfold ensureLabels
  cases hl : cl.label with
  | some lb => exact Par.pure ⟨rfl, rfl, Or.inl ⟨lb, rfl, rfl⟩⟩
  | none =>
    refine .skip fun p => ?_
    cases p with
    | none => exact Par.pure ⟨rfl, rfl, Or.inr ⟨rfl, rfl, nofun⟩⟩
    | some b => exact Par.pure ⟨rfl, rfl, Or.inr ⟨rfl, rfl, fun _ => nofun⟩⟩

theorem KeptIn.kept_old {cl cl' : Clustering} {lb : Blk Int} (hl : cl.label = some lb) (h : KeptIn lb.id lb.buf cl cl') : Kept cl cl' :=
  ⟨h.points, fun lb' hl' => by rw [hl] at hl'; cases hl'; exact ⟨h.label, h.external⟩, fun hn => by rw [hl] at hn; cases hn⟩

theorem kept_new {cl cl' : Clustering} (hl : cl.label = none) (h : cl'.n = cl.n) (he : cl'.external = false) : Kept cl cl' :=
  ⟨h, fun lb hlb => (by rw [hl] at hlb; cases hlb), fun _ => Or.inr he⟩

/-- From a label array on, whichever it is. -/
theorem kept_of_ensure {cl : Clustering} {r : Bool × Clustering} (h : r.2.n = cl.n ∧ r.2.numClusters = cl.numClusters ∧
    ((∃ lb, cl.label = some lb ∧ r = (true, cl)) ∨ cl.label = none ∧ r.2.external = false ∧ (r.1 = true → r.2.label ≠ none))) (hr : r.1 = true) :
    ∃ lb : Blk Int, r.2.label = some lb ∧ ∀ cl', KeptIn lb.id lb.buf r.2 cl' → Kept cl cl' := by
  obtain ⟨h1, -, ⟨lb, h2, rfl⟩ | ⟨h2, h3, h4⟩⟩ := h
  · exact ⟨lb, h2, fun cl' h => h.kept_old h2⟩
  · obtain ⟨lb, hlb⟩ := Option.ne_none_iff_exists'.1 (h4 hr)
    exact ⟨lb, hlb, fun cl' h => kept_new h2 (h.points.trans h1) (h.external.trans h3)⟩

theorem kept_of_ensure_fail {cl : Clustering} {r : Bool × Clustering} (h : r.2.n = cl.n ∧ r.2.numClusters = cl.numClusters ∧
    ((∃ lb, cl.label = some lb ∧ r = (true, cl)) ∨ cl.label = none ∧ r.2.external = false ∧ (r.1 = true → r.2.label ≠ none))) : Kept cl r.2 := by
  obtain ⟨h1, -, ⟨lb, h2, rfl⟩ | ⟨h2, h3, h4⟩⟩ := h
  · exact Kept.refl _
  · exact kept_new h2 h1 h3

theorem kept_clusterByNng {cfg : Cfg} {spi : Spi F} {cl : Clustering} {o : Options F} {m : SeedMethod} : Par (clusterByNng cfg spi cl o m) fun r => Kept cl r.2 := by
  unfold clusterByNng
  refine .skip fun nng => ?_
  cases nng with
  | error ec => exact Par.pure (Kept.refl cl)
  | ok nng =>
    refine Par.bind (P := fun r => Kept cl r.2.1) ?_ fun r hr => .skip fun _ => Par.pure hr
    unfold clusteringFromNng
    refine .skip fun sr => ?_
    cases sr with
    | error ec => exact Par.pure (Kept.refl cl)
    | ok sr =>
      refine .skip fun r12 => ?_
      match r12 with
      | .error ec => exact Par.pure (Kept.refl cl)
      | .ok (r1, r2) =>
        refine (kept_ensureLabels cl).bind ?_
        rintro ⟨ok, cl1⟩ h
        dsimp only
        cases ok with
        | false => exact .skip fun _ => .skip fun _ => Par.pure (kept_of_ensure_fail h)
        | true =>
          obtain ⟨⟨id, b⟩, hlb, hk⟩ := kept_of_ensure h rfl
          refine Par.bind (grows_makeClusters hlb) fun r hr => .skip fun _ => Par.pure (hk _ hr)

/-! ### Batches -/

theorem grows_batchPoint {cfg : Cfg} {primary : Option (Buf Bool)} {assigned : Buf Bool} {i : Nat} {b0 b : Buf Int} {batch : Buf Nat} {inb : Nat} (h : Grows b0 b) :
    ParK (batchPoint cfg primary assigned i b batch inb) fun r => Grows b0 r.1 := by
  unfold batchPoint
  refine .skip fun a => ?_
  split
  · exact ParK.pure h
  · refine (grows_set h _ _).bind fun l hl => ?_
    cases primary with
    | none => exact .skip fun _ => ParK.pure hl
    | some pr =>
      refine .skip fun p => ?_
      split
      · exact .skip fun _ => ParK.pure hl
      · exact ParK.pure hl

theorem grows_fillBatch {cfg : Cfg} {n bs : Nat} {primary : Option (Buf Bool)} {assigned : Buf Bool} {cur : Nat} {b0 b : Buf Int} {batch : Buf Nat} (h : Grows b0 b) :
    ParK (fillBatch cfg n bs primary assigned cur b batch) fun r => Grows b0 r.1 := by
  unfold fillBatch
  refine ParK.bind (parK_forLtB (I := fun r : Buf Int × Buf Nat × Nat => Grows b0 r.1) (R := fun r : Buf Int × Buf Nat × Nat × Nat => Grows b0 r.1) h ?_) fun c hc => ?_
  · rintro i ⟨l, bt, inb⟩ hl
    dsimp only
    split
    · exact (grows_batchPoint hl).bind fun r hr => ParK.pure hr
    · exact ParK.pure hl
  · match c with
    | .stop r => exact ParK.pure hc
    | .next (l, bt, inb) => exact ParK.pure hc

theorem grows_take {b0 : Buf Int} {st : BatchSt} (h : Grows b0 st.labels) (p : Nat) : ParK (st.take p) fun s => Grows b0 s.labels :=
  .skip fun _ => (grows_set h _ _).bind fun l hl => ParK.pure hl

theorem grows_batchStep {cfg : Cfg} {S : Nat} {ignore : Bool} {okq out : Buf Nat} {i : Nat} {b0 : Buf Int} {st : BatchSt} (h : Grows b0 st.labels) :
    ParK (batchStep cfg S ignore okq out i st) (CtlP (fun s => Grows b0 s.labels) fun s => Grows b0 s.labels) := by
  unfold batchStep
  refine .skip fun q => .skip fun aq => ?_
  split
  · exact ParK.pure h
  · refine .skip fun c => ?_
    cases c with
    | next u =>
      dsimp only
      split
      · exact ParK.pure h
      · refine (parK_forLt (I := fun s : BatchSt => Grows b0 s.labels) h fun j s hs => .skip fun a => grows_take hs a).bind fun s hs => ?_
        exact .skip fun _ => .skip fun last => (grows_take hs last).bind fun s' hs' => ParK.pure hs'
    | stop a =>
      dsimp only
      split
      · exact .skip fun _ => (grows_set h _ _).bind fun l hl => ParK.pure hl
      · exact ParK.pure h

theorem grows_batchLoop {cfg : Cfg} {spi : Spi F} {o : spi.NN} {ids : BatchIds} {n S : Nat} {ignore rs : Bool} {radius : F} {primary : Option (Buf Bool)} {bs : Nat} {b0 : Buf Int} :
    ∀ (fuel cur : Nat) (r : RunSt), Grows b0 r.st.labels → Par (batchLoop cfg spi o ids n S ignore rs radius primary bs fuel cur r) fun x => Grows b0 x.2.st.labels := by
  intro fuel
  induction fuel with
  | zero =>
    intro cur r h
    unfold batchLoop
    split
    · exact Par.useK nofun
    · exact Par.pure h
  | succ fuel ih =>
    intro cur r h
    unfold batchLoop
    split
    · refine (Par.useK (grows_fillBatch h)).bind ?_
      rintro ⟨l, batch, inb, cur'⟩ hl
      dsimp only at hl ⊢
      split
      · exact Par.pure hl
      · refine .skip fun _ => .skip fun res => ?_
        cases res with
        | none => exact .skip fun _ => Par.pure hl
        | some res =>
          refine .skip fun nn => ?_
          refine Par.bind (Par.useK (parK_forLtB (I := fun s : BatchSt => Grows b0 s.labels) (R := fun s : BatchSt => Grows b0 s.labels) hl fun i s hs => grows_batchStep hs)) fun c hc => ?_
          cases c with
          | stop st => exact .skip fun _ => Par.pure hc
          | next st => exact ih _ _ hc
    · exact Par.pure h

theorem grows_runBatches {cfg : Cfg} {spi : Spi F} {o : spi.NN} {ids : BatchIds} {n S : Nat} {ignore rs : Bool} {radius : F} {primary : Option (Buf Bool)} {bs : Nat} {batch out : Buf Nat}
    {assigned : Buf Bool} {b : Buf Int} : Par (runBatches cfg spi o ids n S ignore rs radius primary bs batch out assigned b) fun r => Grows b r.2.1 := by
  unfold runBatches
  refine (grows_batchLoop (b0 := b) _ _ _ (Grows.refl b)).bind ?_
  rintro ⟨ec, r⟩ h
  dsimp only at h ⊢
  split
  · exact Par.pure h
  · split
    · split
      · exact .skip fun _ => Par.pure h
      · exact .skip fun _ => Par.pure h
    · exact Par.pure h

theorem kept_clusterBatches {cfg : Cfg} {spi : Spi F} {cl : Clustering} {S : Nat} {um : UnassignedMethod} {rs : Bool} {radius : F} {lenPrimary : Nat} {primary : Option (Buf Nat)} {batchSize : Nat} :
    Par (clusterBatches cfg spi cl S um rs radius lenPrimary primary batchSize) fun r => Kept cl r.2 := by
  unfold clusterBatches
  split
  · exact .skip fun _ => Par.pure (Kept.refl cl)
  · refine .skip fun o => ?_
    cases o with
    | none => exact .skip fun _ => Par.pure (Kept.refl cl)
    | some o =>
      refine .skip fun batch => .skip fun out => .skip fun assigned => ?_
      split
      · unfold batchesMain
        refine (kept_ensureLabels cl).bind ?_
        rintro ⟨ok, cl1⟩ h
        dsimp only
        cases ok with
        | false => exact .skip fun _ => .skip fun _ => .skip fun _ => .skip fun _ => .skip fun _ => Par.pure (kept_of_ensure_fail h)
        | true =>
          obtain ⟨⟨id, b⟩, hlb, hk⟩ := kept_of_ensure h rfl
          dsimp only at hlb
          refine .skip fun pr => ?_
          rw [hlb]
          refine grows_runBatches.bind fun r hr => ?_
          exact .skip fun _ => .skip fun _ => .skip fun _ => .skip fun _ => .skip fun _ => Par.pure (hk _ ⟨rfl, ⟨_, rfl, hr⟩, rfl⟩)
      · exact .skip fun _ => .skip fun _ => .skip fun _ => .skip fun _ => .skip fun _ => Par.pure (Kept.refl cl)

/-! ### Hierarchical clustering -/

theorem grows_labelCluster {store : Buf Nat} {c : HiItem} {label : Nat} {b0 b : Buf Int} (h : Grows b0 b) : ParK (labelCluster store c label b) (Grows b0) :=
  .skip fun _ => parK_forLt h fun i l hl => .skip fun _ => grows_set hl _ _

theorem grows_hiStep {cfg : Cfg} {hi : HiEnv F} {spi : Spi F} {ids : HiIds} {lids : List Nat} {S : Nat} {batch : Bool} {b0 : Buf Int} {r : HiRun F} (h : Grows b0 r.labels) :
    Par (hiStep cfg hi spi ids lids S batch r) fun x => Grows b0 x.2.labels := by
  unfold hiStep
  refine .skip fun st => ?_
  cases st with
  | error e => exact Par.pure h
  | ok st =>
    refine .skip fun c => ?_
    dsimp only
    split
    · split
      · split
        · exact .skip fun _ => Par.pure h
        · exact (Par.useK (grows_labelCluster h)).bind fun l hl => Par.pure hl
      · exact Par.pure h
    · refine .skip fun x => ?_
      match x with
      | .error e => exact Par.pure h
      | .ok (c1, c2, bufs) => exact .skip fun _ => Par.pure h

theorem grows_hiLoop {cfg : Cfg} {hi : HiEnv F} {spi : Spi F} {ids : HiIds} {lids : List Nat} {S : Nat} {batch : Bool} {b0 : Buf Int} :
    ∀ (fuel : Nat) (r : HiRun F), Grows b0 r.labels → Par (hiLoop cfg hi spi ids lids S batch fuel r) fun x => Grows b0 x.2.labels := by
  intro fuel
  induction fuel with
  | zero =>
    intro r h w a w' hb
    exact (nomatch (show (none : Option ((ErrorCode × HiRun F) × World)) = some (a, w') from hb))
  | succ fuel ih =>
    intro r h
    unfold hiLoop
    split
    · exact Par.pure h
    · refine (grows_hiStep h).bind ?_
      rintro ⟨e, r'⟩ h'
      cases e with
      | some e => exact Par.pure h'
      | none => exact ih r' h'

theorem kept_hiCluster {cfg : Cfg} {hi : HiEnv F} {spi : Spi F} {S : Nat} {batch : Bool} {cl : Clustering} (h0 : cl.numClusters ≠ 0 → cl.label ≠ none) :
    Par (hiCluster cfg hi spi S batch cl) fun r => Kept cl r.2 := by
  have hl : Par (hiLabels cl) fun r => r.2.n = cl.n ∧ r.2.numClusters = cl.numClusters ∧
      ((∃ lb, cl.label = some lb ∧ r = (true, cl)) ∨ cl.label = none ∧ r.2.external = false ∧ (r.1 = true → r.2.label ≠ none)) := by
    unfold hiLabels
    split
    · exact kept_ensureLabels cl
    · rename_i hk
      obtain ⟨lb, hlb⟩ := Option.ne_none_iff_exists'.1 (h0 hk)
      exact Par.pure ⟨rfl, rfl, Or.inl ⟨lb, hlb, rfl⟩⟩
  unfold hiCluster
  refine hl.bind ?_
  rintro ⟨ok, cl1⟩ h
  dsimp only
  cases ok with
  | false => exact .skip fun _ => Par.pure (kept_of_ensure_fail h)
  | true =>
    obtain ⟨⟨id, b⟩, hlb, hk⟩ := kept_of_ensure h rfl
    dsimp only at hlb
    have hself : KeptIn id b cl1 cl1 := ⟨rfl, ⟨b, hlb, Grows.refl b⟩, rfl⟩
    refine .skip fun st => ?_
    match st with
    | .error e => exact Par.pure (hk _ hself)
    | .ok (stack, store, largest) =>
      unfold hiMain
      refine .skip fun i1 => .skip fun i2 => .skip fun d => .skip fun m => .skip fun e1 => .skip fun e2 => ?_
      refine Par.bind (P := fun r => KeptIn id b cl1 r.2.1) ?_ fun r hr => ?_
      · unfold hiWork
        split
        · rw [hlb]
          refine (grows_hiLoop (b0 := b) _ _ (Grows.refl b)).bind fun r hr => Par.pure ⟨rfl, ⟨_, rfl, hr⟩, rfl⟩
        · exact .skip fun _ => Par.pure hself
      · exact .skip fun _ => .skip fun _ => .skip fun _ => .skip fun _ => .skip fun _ => .skip fun _ => .skip fun _ => .skip fun _ => Par.pure (hk _ hr)

/-! ### Whole calls -/

theorem kept_scClustering {cfg : Cfg} {spi : Spi F} {o : Options F} {ob : ClObj} : Par (scClustering cfg spi o (some ob)) fun r => ∃ cl', r.2 = some ⟨ob.id, cl'⟩ ∧ Kept ob.cl cl' := by
  have hself : ∃ cl', some ob = some ⟨ob.id, cl'⟩ ∧ Kept ob.cl cl' := ⟨ob.cl, rfl, Kept.refl _⟩
  unfold scClustering
  refine .skip fun valid => ?_
  cases valid with
  | false => exact .skip fun _ => Par.pure hself
  | true =>
    dsimp only
    split
    · exact .skip fun _ => Par.pure hself
    · split
      · exact .skip fun _ => Par.pure hself
      · refine .skip fun ec => ?_
        split
        · exact Par.pure hself
        · split
          · exact .skip fun _ => Par.pure hself
          · split
            · exact kept_clusterBatches.bind fun r hr => .skip fun _ => Par.pure ⟨_, rfl, hr⟩
            · exact kept_clusterByNng.bind fun r hr => .skip fun _ => Par.pure ⟨_, rfl, hr⟩
            · exact Par.useK nofun

theorem kept_hierarchical {cfg : Cfg} {hi : HiEnv F} {spi : Spi F} {S : Nat} {batch : Bool} {ob : ClObj} (h0 : ob.cl.numClusters ≠ 0 → ob.cl.label ≠ none) :
    Par (hierarchical cfg hi spi S batch (some ob)) fun r => ∃ cl', r.2 = some ⟨ob.id, cl'⟩ ∧ Kept ob.cl cl' := by
  have hself : ∃ cl', some ob = some ⟨ob.id, cl'⟩ ∧ Kept ob.cl cl' := ⟨ob.cl, rfl, Kept.refl _⟩
  unfold hierarchical
  refine .skip fun valid => ?_
  cases valid with
  | false => exact .skip fun _ => Par.pure hself
  | true =>
    dsimp only
    split
    · exact .skip fun _ => Par.pure hself
    · exact (kept_hiCluster h0).bind fun r hr => .skip fun _ => Par.pure ⟨_, rfl, hr⟩

end Scc
