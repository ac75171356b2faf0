/-
Failure reports of the back end reach the caller.
-/
import Verif.Spec.Watch

namespace Scc

variable {F : Type}

/-! ### Rules -/

/-- Every outcome of `x` satisfies `B`. -/
def Ends {α : Type} (x : M α) (B : α → Prop) : Prop := ∀ w r, x w = some r → B r.1

/-- Every outcome of `y` is an outcome of `x`, or bad. -/
def Tracks {α : Type} (x y : M α) (B : α → Prop) : Prop := ∀ w r, y w = some r → x w = some r ∨ B r.1

theorem bind_eq {α β : Type} {x : M α} {f : α → M β} {w : World} {r : β × World} : (x >>= f) w = some r ↔ ∃ a w1, x w = some (a, w1) ∧ f a w1 = some r := by
  show (x w).bind (fun p => f p.1 p.2) = some r ↔ _
  rw [Option.bind_eq_some_iff]
  constructor
  · rintro ⟨⟨a, w1⟩, h1, h2⟩; exact ⟨a, w1, h1, h2⟩
  · rintro ⟨a, w1, h1, h2⟩; exact ⟨⟨a, w1⟩, h1, h2⟩

theorem ends_pure {α : Type} {a : α} {B : α → Prop} (h : B a) : Ends (pure a) B := by
  intro w r hr
  cases hr
  exact h

theorem ends_bind {α β : Type} {x : M α} {f : α → M β} {A : α → Prop} {B : β → Prop} (hx : Ends x A) (hf : ∀ a, A a → Ends (f a) B) : Ends (x >>= f) B := by
  intro w r hr
  obtain ⟨a, w1, h1, h2⟩ := bind_eq.1 hr
  exact hf a (hx w _ h1) w1 r h2

theorem ends_next {α β : Type} {x : M α} {f : α → M β} {B : β → Prop} (hf : ∀ a, Ends (f a) B) : Ends (x >>= f) B := ends_bind (A := fun _ => True) (fun _ _ _ => trivial) fun a _ => hf a

theorem ends_mkErr {e : ErrorCode} {s : String} {l : Nat} {m : Option String} : Ends (mkErr e s l m) fun a => a = e := by
  intro w r hr
  cases hr
  rfl

theorem ends_false {α : Type} {x : M α} {B : α → Prop} (h : False) : Ends x B := h.elim

/-- The result is an error other than "ok". -/
def IsErr {α : Type} (r : Except ErrorCode α) : Prop := ∃ e, r = .error e ∧ e ≠ .ok

theorem ends_fail {α : Type} {e : ErrorCode} {s : String} {l : Nat} {m : Option String} (h : e ≠ .ok) : Ends (fail e s l m : M (Except ErrorCode α)) IsErr := by
  unfold fail
  exact ends_bind ends_mkErr fun a ha => ends_pure ⟨a, rfl, ha ▸ h⟩

theorem tracks_refl {α : Type} (x : M α) (B : α → Prop) : Tracks x x B := fun _ _ h => Or.inl h

theorem tracks_bind {α β : Type} {x y : M α} {f g : α → M β} {A : α → Prop} {B : β → Prop} (hx : Tracks x y A) (hf : ∀ a, Tracks (f a) (g a) B) (hb : ∀ a, A a → Ends (g a) B) :
    Tracks (x >>= f) (y >>= g) B := by
  intro w r hr
  obtain ⟨a, w1, h1, h2⟩ := bind_eq.1 hr
  rcases hx w _ h1 with h | h
  · rcases hf a w1 r h2 with h' | h'
    · exact Or.inl (bind_eq.2 ⟨a, w1, h, h'⟩)
    · exact Or.inr h'
  · exact Or.inr (hb a h w1 r h2)

theorem tracks_next {α β : Type} {x : M α} {f g : α → M β} {B : β → Prop} (hf : ∀ a, Tracks (f a) (g a) B) : Tracks (x >>= f) (x >>= g) B :=
  tracks_bind (tracks_refl x fun _ => False) hf fun _ h => h.elim

theorem tracks_mono {α : Type} {x y : M α} {A B : α → Prop} (h : Tracks x y A) (hab : ∀ a, A a → B a) : Tracks x y B :=
  fun w r hr => (h w r hr).imp id (hab _)

theorem tracks_foldBM {α σ ρ : Type} {f g : σ → α → M (Ctl σ ρ)} {B : ρ → Prop} (h : ∀ s a, Tracks (f s a) (g s a) fun c => ∃ r, c = .stop r ∧ B r) (s : σ) (l : List α) :
    Tracks (foldBM f s l) (foldBM g s l) fun c => ∃ r, c = .stop r ∧ B r := by
  induction l generalizing s with
  | nil => exact tracks_refl _ _
  | cons a l ih =>
    unfold foldBM
    refine tracks_bind (h s a) (fun c => ?_) ?_
    · cases c with
      | next s => exact ih s
      | stop r => exact tracks_refl _ _
    · rintro _ ⟨r, rfl, hr⟩
      exact ends_pure ⟨r, rfl, hr⟩

/-! ### The back end -/

theorem tracks_none {α : Type} (b : Bool) (x : M (Option α)) : Tracks (stopAtNone b x) x fun r => r = none ∧ b = true := by
  intro w r hr
  unfold stopAtNone
  rw [hr]
  obtain ⟨_ | a, w'⟩ := r
  · cases b
    · exact Or.inl rfl
    · exact Or.inr ⟨rfl, rfl⟩
  · exact Or.inl rfl

theorem tracks_false (b : Bool) (x : M Bool) : Tracks (stopAtFalse b x) x fun r => r = false ∧ b = true := by
  intro w r hr
  unfold stopAtFalse
  rw [hr]
  obtain ⟨_ | _, w'⟩ := r
  · cases b
    · exact Or.inl rfl
    · exact Or.inr ⟨rfl, rfl⟩
  · exact Or.inl rfl

variable {spi : Spi F} {v : Watch}

theorem tracks_init (len : Nat) (a : Option Arr) : Tracks ((spi.watched v).nnInit len a) (spi.nnInit len a) fun r => r = none ∧ v.start = true := tracks_none _ _

theorem tracks_search (o : spi.NN) (lenQ : Nat) (q : Option Arr) (k : Nat) (rs : Bool) (r : F) (oq : OutQ) (nn : Buf Nat) :
    Tracks ((spi.watched v).nnSearch o lenQ q k rs r oq nn) (spi.nnSearch o lenQ q k rs r oq nn) fun r => r = none ∧ v.search = true := tracks_none _ _

theorem tracks_close (o : spi.NN) : Tracks ((spi.watched v).nnClose o) (spi.nnClose o) fun r => r = false ∧ v.close = true := tracks_false _ _

theorem tracks_rows (lenQ : Nat) (q : Option Arr) (lenC : Nat) (c : Option Arr) (out : Buf F) :
    Tracks ((spi.watched v).distRows lenQ q lenC c out) (spi.distRows lenQ q lenC c out) fun r => r = none ∧ v.start = true := tracks_none _ _

variable [FloatOps F]

/-! ### The digraph -/

omit [FloatOps F] in
theorem ends_fail' {α : Type} {e : ErrorCode} {s : String} {l : Nat} {m : Option String} (h : e ≠ .ok) : Ends (fail e s l m : M (Except ErrorCode α)) fun r => r ≠ .error .ok := by
  intro w r hr
  obtain ⟨e', h1, h2⟩ := ends_fail h w r hr
  rw [h1]
  rintro ⟨⟩
  exact h2 rfl

omit [FloatOps F] in
theorem ends_initDigraph (cfg : Cfg) (n m : Nat) : Ends (initDigraph cfg n m) fun r => r ≠ .error .ok := by
  unfold initDigraph
  by_cases h : cfg.arcMax < m ∨ cfg.sizeMax < m
  · rw [if_pos h]; exact ends_fail' (by decide)
  rw [if_neg h]
  refine ends_next fun t => ?_
  cases t with
  | none => exact ends_fail' (by decide)
  | some t =>
    dsimp only
    by_cases h0 : 0 < m
    · rw [if_pos h0]
      refine ends_next fun t => ?_
      cases t with
      | none => exact ends_next fun _ => ends_fail' (by decide)
      | some t => exact ends_pure nofun
    · rw [if_neg h0]; exact ends_pure nofun

omit [FloatOps F] in
theorem ends_shrinkNng (cfg : Cfg) (d : Digraph) (lenQ k numOk : Nat) (outQ : Buf Nat) : Ends (shrinkNng cfg d lenQ k numOk outQ) fun r => r ≠ .error .ok := by
  unfold shrinkNng
  by_cases h : numOk < lenQ
  · rw [if_pos h]
    refine ends_next fun r => ?_
    obtain ⟨ec, d⟩ := r
    dsimp only
    by_cases he : ec ≠ .ok
    · rw [if_pos he]
      refine ends_next fun _ => ends_pure ?_
      rintro ⟨⟩
      exact he rfl
    · rw [if_neg he]; exact ends_pure nofun
  · rw [if_neg h]; exact ends_pure nofun

omit [FloatOps F] in
theorem ends_internalOut (rs : Bool) (outQ : OutQ) (lenQ : Nat) : Ends (internalOut rs outQ lenQ) fun r => r ≠ .error .ok := by
  unfold internalOut
  cases rs with
  | false => exact ends_pure nofun
  | true =>
    rw [if_pos rfl]
    cases outQ with
    | null =>
      dsimp only
      refine ends_next fun b => ?_
      cases b with
      | none => exact ends_fail' (by decide)
      | some b => exact ends_pure nofun
    | same => exact ends_pure nofun
    | buf b => exact ends_pure nofun

omit [FloatOps F] in
theorem ends_makeNngFromSearch (cfg : Cfg) (o : spi.NN) (n lenQ : Nat) (queries : Option Arr) (k : Nat) (rs : Bool) (radius : F) (outQ : OutQ) :
    Ends (makeNngFromSearch cfg spi o n lenQ queries k rs radius outQ) fun r => r ≠ .error .ok := by
  unfold makeNngFromSearch
  refine ends_bind (ends_internalOut rs outQ lenQ) fun r hr => ?_
  cases r with
  | error ec => exact ends_pure fun h => hr (by cases h; rfl)
  | ok r =>
    refine ends_bind (ends_initDigraph _ _ _) fun d hd => ?_
    cases d with
    | error ec => exact ends_next fun _ => ends_pure fun h => hd (by cases h; rfl)
    | ok d =>
      refine ends_next fun _ => ends_next fun r => ?_
      cases r with
      | none => exact ends_next fun _ => ends_next fun _ => ends_fail' (by decide)
      | some r => exact ends_next fun _ => ends_next fun _ => ends_shrinkNng _ _ _ _ _ _

omit [FloatOps F] in
theorem tracks_bind' {α β : Type} {x y : M α} {f g : α → M β} {A P : α → Prop} {B : β → Prop} (hx : Tracks x y A) (hp : Ends y P) (hf : ∀ a, P a → Tracks (f a) (g a) B) (hb : ∀ a, A a → Ends (g a) B) :
    Tracks (x >>= f) (y >>= g) B := by
  intro w r hr
  obtain ⟨a, w1, h1, h2⟩ := bind_eq.1 hr
  rcases hx w _ h1 with h | h
  · rcases hf a (hp w _ h1) w1 r h2 with h' | h'
    · exact Or.inl (bind_eq.2 ⟨a, w1, h, h'⟩)
    · exact Or.inr h'
  · exact Or.inr (hb a h w1 r h2)

omit [FloatOps F] in
theorem tracks_makeNngFromSearch (cfg : Cfg) (o : spi.NN) (n lenQ : Nat) (queries : Option Arr) (k : Nat) (rs : Bool) (radius : F) (outQ : OutQ) :
    Tracks (makeNngFromSearch cfg (spi.watched v) o n lenQ queries k rs radius outQ) (makeNngFromSearch cfg spi o n lenQ queries k rs radius outQ) IsErr := by
  unfold makeNngFromSearch
  refine tracks_next fun r => ?_
  cases r with
  | error ec => dsimp only; exact tracks_refl _ _
  | ok r =>
    dsimp only
    refine tracks_next fun d => ?_
    cases d with
    | error ec => dsimp only; exact tracks_refl _ _
    | ok d =>
      dsimp only
      refine tracks_next fun _ => tracks_bind (tracks_search _ _ _ _ _ _ _ _) (fun r => ?_) ?_
      · cases r <;> dsimp only <;> exact tracks_refl _ _
      · rintro _ ⟨rfl, -⟩
        exact ends_next fun _ => ends_next fun _ => ends_fail (by decide)

omit [FloatOps F] in
theorem tracks_makeNng (cfg : Cfg) (n lenS : Nat) (search : Option Arr) (lenQ : Nat) (queries : Option Arr) (k : Nat) (rs : Bool) (radius : F) (outQ : OutQ) :
    Tracks (makeNng cfg (spi.watched v) n lenS search lenQ queries k rs radius outQ) (makeNng cfg spi n lenS search lenQ queries k rs radius outQ) IsErr := by
  unfold makeNng
  refine tracks_bind (tracks_init _ _) (fun o => ?_) ?_
  · cases o with
    | none => dsimp only; exact tracks_refl _ _
    | some o =>
      dsimp only
      refine tracks_bind' (tracks_makeNngFromSearch (spi := spi) (v := v) cfg o n lenQ queries k rs radius outQ) (ends_makeNngFromSearch (spi := spi) cfg o n lenQ queries k rs radius outQ) (fun r hr => ?_) ?_
      · cases r with
        | error ec =>
          dsimp only
          exact tracks_bind (tracks_close (spi := spi) (v := v) o) (fun _ => tracks_refl _ _) fun _ _ => ends_pure ⟨ec, rfl, fun h => hr (by rw [h])⟩
        | ok r =>
          dsimp only
          refine tracks_bind (tracks_close (spi := spi) (v := v) o) (fun b => ?_) ?_
          · cases b <;> exact tracks_refl _ _
          · rintro _ ⟨rfl, -⟩
            exact ends_next fun _ => ends_fail (by decide)
      · rintro _ ⟨e, rfl, he⟩
        exact ends_next fun _ => ends_pure ⟨e, rfl, he⟩
  · rintro _ ⟨rfl, -⟩
    exact ends_fail (by decide)

omit [FloatOps F] in
theorem tracks_nngSizeArcs (cfg : Cfg) (n S lenPrimary : Nat) (primary : Option Arr) (rs : Bool) (radius : F) :
    Tracks (nngSizeArcs cfg (spi.watched v) n S lenPrimary primary rs radius) (nngSizeArcs cfg spi n S lenPrimary primary rs radius) IsErr := by
  unfold nngSizeArcs
  refine tracks_bind (tracks_makeNng _ _ _ _ _ _ _ _ _ _) (fun r => ?_) ?_
  · cases r <;> dsimp only <;> exact tracks_refl _ _
  · rintro _ ⟨e, rfl, he⟩
    exact ends_pure ⟨e, rfl, he⟩

omit [FloatOps F] in
theorem tracks_nngWithSize (cfg : Cfg) (n S lenPrimary : Nat) (primary : Option Arr) (rs : Bool) (radius : F) :
    Tracks (nngWithSize cfg (spi.watched v) n S lenPrimary primary rs radius) (nngWithSize cfg spi n S lenPrimary primary rs radius) IsErr := by
  unfold nngWithSize
  refine tracks_bind (tracks_nngSizeArcs _ _ _ _ _ _ _) (fun r => tracks_refl _ _) ?_
  rintro _ ⟨e, rfl, he⟩
  exact ends_pure ⟨e, rfl, he⟩

omit [FloatOps F] in
theorem tracks_typeNngStep (cfg : Cfg) (n : Nat) (tcs : Buf Nat) (tc : TypeCount) (primary : Option Arr) (rs : Bool) (radius : F) (st : TypeSt) (i : Nat) :
    Tracks (typeNngStep cfg (spi.watched v) n tcs tc primary rs radius st i) (typeNngStep cfg spi n tcs tc primary rs radius st i) fun c => ∃ r, c = .stop r ∧ r.1 ≠ .ok := by
  unfold typeNngStep
  refine tracks_next fun c => ?_
  by_cases hc : 0 < c
  · rw [if_pos hc, if_pos hc]
    refine tracks_next fun g => ?_
    dsimp only
    refine tracks_bind (tracks_makeNng _ _ _ _ _ _ _ _ _ _) (fun r => ?_) ?_
    · cases r <;> dsimp only <;> exact tracks_refl _ _
    · rintro _ ⟨e, rfl, he⟩
      exact ends_pure ⟨_, rfl, he⟩
  · rw [if_neg hc, if_neg hc]; exact tracks_refl _ _

omit [FloatOps F] in
theorem tracks_addGeneral (cfg : Cfg) (n S sum : Nat) (primary : Option Arr) (rs : Bool) (radius : F) (numQ : Nat) (seedable : Option (Blk Nat)) (d : Digraph) :
    Tracks (addGeneral cfg (spi.watched v) n S sum primary rs radius numQ seedable d) (addGeneral cfg spi n S sum primary rs radius numQ seedable d) IsErr := by
  unfold addGeneral
  by_cases h : sum < S
  · rw [if_pos h, if_pos h]
    refine tracks_bind (tracks_makeNng _ _ _ _ _ _ _ _ _ _) (fun r => ?_) ?_
    · cases r <;> dsimp only <;> exact tracks_refl _ _
    · rintro _ ⟨e, rfl, he⟩
      exact ends_next fun _ => ends_next fun _ => ends_pure ⟨e, rfl, he⟩
  · rw [if_neg h, if_neg h]; exact tracks_refl _ _

omit [FloatOps F] in
theorem tracks_nngTypeArcs (cfg : Cfg) (n S numTypes : Nat) (tcs labels : Buf Nat) (lenPrimary : Nat) (primary : Option Arr) (rs : Bool) (radius : F) :
    Tracks (nngTypeArcs cfg (spi.watched v) n S numTypes tcs labels lenPrimary primary rs radius) (nngTypeArcs cfg spi n S numTypes tcs labels lenPrimary primary rs radius) IsErr := by
  unfold nngTypeArcs
  refine tracks_next fun s => ?_
  cases s with
  | error ec => dsimp only; exact tracks_refl _ _
  | ok s =>
    dsimp only
    refine tracks_next fun a => ?_
    cases a with
    | none => dsimp only; exact tracks_refl _ _
    | some a =>
      dsimp only
      refine tracks_next fun tc => ?_
      cases tc with
      | error ec => dsimp only; exact tracks_refl _ _
      | ok tc =>
        dsimp only
        refine tracks_bind (tracks_foldBM (tracks_typeNngStep cfg n tcs tc primary rs radius) _ _) (fun r => tracks_next fun _ => tracks_next fun _ => tracks_next fun _ => ?_) ?_
        · unfold combineTypes
          cases r with
          | stop r => dsimp only; exact tracks_refl _ _
          | next st =>
            dsimp only
            refine tracks_next fun _ => tracks_next fun u => tracks_next fun _ => tracks_next fun _ => ?_
            cases u with
            | error ec => dsimp only; exact tracks_refl _ _
            | ok d => dsimp only; exact tracks_addGeneral _ _ _ _ _ _ _ _ _ _
        · rintro _ ⟨⟨ec, st⟩, rfl, he⟩
          unfold combineTypes
          dsimp only
          exact ends_next fun _ => ends_next fun _ => ends_next fun _ => ends_next fun _ => ends_next fun _ => ends_next fun _ => ends_pure ⟨ec, rfl, he⟩

omit [FloatOps F] in
theorem tracks_nngWithTypes (cfg : Cfg) (n S numTypes : Nat) (tcs labels : Buf Nat) (lenPrimary : Nat) (primary : Option Arr) (rs : Bool) (radius : F) :
    Tracks (nngWithTypes cfg (spi.watched v) n S numTypes tcs labels lenPrimary primary rs radius) (nngWithTypes cfg spi n S numTypes tcs labels lenPrimary primary rs radius) IsErr := by
  unfold nngWithTypes
  refine tracks_bind (tracks_nngTypeArcs _ _ _ _ _ _ _ _ _ _) (fun r => tracks_refl _ _) ?_
  rintro _ ⟨e, rfl, he⟩
  exact ends_pure ⟨e, rfl, he⟩

omit [FloatOps F] in
theorem tracks_buildNng (cfg : Cfg) (n : Nat) (o : Options F) : Tracks (buildNng cfg (spi.watched v) n o) (buildNng cfg spi n o) IsErr := by
  unfold buildNng
  by_cases h : o.numTypes < 2
  · rw [if_pos h, if_pos h]; exact tracks_nngWithSize _ _ _ _ _ _ _
  · rw [if_neg h, if_neg h]; exact tracks_nngWithTypes _ _ _ _ _ _ _ _ _ _

/-! ### The radius -/

theorem tracks_estimateStep (sr : SeedResult) (nng : Digraph) (scratch : Nat) (st : Nat × F × Buf F) (s : Nat) :
    Tracks (estimateStep (spi.watched v) sr nng scratch st s) (estimateStep spi sr nng scratch st s) fun c => ∃ r, c = .stop r ∧ r ≠ .ok := by
  unfold estimateStep
  refine tracks_next fun a => ?_
  dsimp only
  refine tracks_next fun _ => tracks_bind (tracks_rows _ _ _ _ _) (fun r => ?_) ?_
  · cases r <;> dsimp only <;> exact tracks_refl _ _
  · rintro _ ⟨rfl, -⟩
    exact ends_next fun _ => ends_bind ends_mkErr fun e he => ends_pure ⟨e, rfl, by rw [he]; decide⟩

theorem tracks_estimateAvg (sr : SeedResult) (nng : Digraph) (S : Nat) : Tracks (estimateAvg (spi.watched v) sr nng S) (estimateAvg spi sr nng S) IsErr := by
  unfold estimateAvg
  refine tracks_next fun b => ?_
  cases b with
  | none => dsimp only; exact tracks_refl _ _
  | some b =>
    dsimp only
    refine tracks_bind (tracks_foldBM (tracks_estimateStep sr nng b.id) _ _) (fun r => ?_) ?_
    · cases r <;> dsimp only <;> exact tracks_refl _ _
    · rintro _ ⟨e, rfl, he⟩
      exact ends_pure ⟨e, rfl, he⟩

theorem tracks_estimateRadii (sr : SeedResult) (nng : Digraph) (S : Nat) (r1 r2 : RadiusMethod × F) :
    Tracks (estimateRadii (spi.watched v) sr nng S r1 r2) (estimateRadii spi sr nng S r1 r2) IsErr := by
  unfold estimateRadii
  by_cases h : r1.1 = .useEstimated ∨ r2.1 = .useEstimated
  · rw [if_pos h, if_pos h]
    refine tracks_bind (tracks_estimateAvg _ _ _) (fun r => ?_) ?_
    · cases r <;> dsimp only <;> exact tracks_refl _ _
    · rintro _ ⟨e, rfl, he⟩
      exact ends_next fun _ => ends_pure ⟨e, rfl, he⟩
  · rw [if_neg h, if_neg h]; exact tracks_refl _ _

/-! ### Assignment -/

/-- The code of a pair is not "ok". -/
abbrev NotOk {α : Type} (r : ErrorCode × α) : Prop := r.1 ≠ .ok

omit [FloatOps F] in
theorem tracks_initNN (need : Bool) (len : Nat) (arr : Option (Blk Nat)) (line : Nat) : Tracks (initNN (spi.watched v) need len arr line) (initNN spi need len arr line) IsErr := by
  unfold initNN
  cases need with
  | false => exact tracks_refl _ _
  | true =>
    rw [if_pos rfl, if_pos rfl]
    refine tracks_bind (tracks_init _ _) (fun r => ?_) ?_
    · cases r <;> dsimp only <;> exact tracks_refl _ _
    · rintro _ ⟨rfl, -⟩
      exact ends_fail (by decide)

omit [FloatOps F] in
theorem ends_initNN (need : Bool) (len : Nat) (arr : Option (Blk Nat)) (line : Nat) : Ends (initNN spi need len arr line) fun r => r ≠ .error .ok := by
  unfold initNN
  cases need with
  | false => exact ends_pure nofun
  | true =>
    rw [if_pos rfl]
    refine ends_next fun r => ?_
    cases r with
    | none => exact ends_fail' (by decide)
    | some o => exact ends_pure nofun

omit [FloatOps F] in
theorem tracks_closeNN (hc : v.close = false) (o : Option spi.NN) : Tracks (closeNN (spi.watched v) o) (closeNN spi o) fun _ => False := by
  cases o with
  | none => exact tracks_refl _ _
  | some o =>
    unfold closeNN
    refine tracks_bind (tracks_close o) (fun _ => tracks_refl _ _) ?_
    rintro _ ⟨-, h⟩
    rw [hc] at h
    cases h

omit [FloatOps F] in
theorem tracks_closeAll (hc : v.close = false) (son : Option (Blk Nat)) (ta : Nat) (oa os : Option spi.NN) : Tracks (closeAll (spi.watched v) son ta oa os) (closeAll spi son ta oa os) fun _ => False := by
  unfold closeAll
  exact tracks_next fun _ => tracks_next fun _ => tracks_bind (tracks_closeNN hc oa) (fun _ => tracks_closeNN hc os) fun _ h => h.elim

omit [FloatOps F] in
theorem tracks_assignBySearch (o : spi.NN) (label : Option (Blk Int)) (num : Nat) (ta : Blk Nat) (rs : Bool) (radius : F) :
    Tracks (assignBySearch (spi.watched v) o label num ta rs radius) (assignBySearch spi o label num ta rs radius) fun r => r.1 ≠ .ok ∧ v.search = true := by
  unfold assignBySearch
  refine tracks_next fun b => tracks_next fun _ => tracks_bind (tracks_search _ _ _ _ _ _ _ _) (fun r => ?_) ?_
  · cases r <;> dsimp only <;> exact tracks_refl _ _
  · rintro _ ⟨rfl, hv⟩
    exact ends_next fun _ => ends_bind ends_mkErr fun e he => ends_pure ⟨by show e ≠ .ok; rw [he]; decide, hv⟩

omit [FloatOps F] in
theorem tracks_assignUnassigned (oa os : Option spi.NN) (um : UnassignedMethod) (label : Option (Blk Int)) (num : Nat) (ta : Blk Nat) (rs : Bool) (radius : F) :
    Tracks (assignUnassigned (spi.watched v) oa os um label num ta rs radius) (assignUnassigned spi oa os um label num ta rs radius) fun r => r.1 ≠ .ok ∧ v.search = true := by
  unfold assignUnassigned
  by_cases h : 0 < num
  · rw [if_pos h, if_pos h]
    by_cases h1 : um = .closestAssigned
    · rw [if_pos h1, if_pos h1]
      exact tracks_next fun o => tracks_assignBySearch (spi := spi) (v := v) o _ _ _ _ _
    · rw [if_neg h1, if_neg h1]
      by_cases h2 : um = .closestSeed
      · rw [if_pos h2, if_pos h2]
        exact tracks_next fun o => tracks_assignBySearch (spi := spi) (v := v) o _ _ _ _ _
      · rw [if_neg h2, if_neg h2]; exact tracks_refl _ _
  · rw [if_neg h, if_neg h]; exact tracks_refl _ _

omit [FloatOps F] in
theorem tracks_secondRound (cfg : Cfg) (oa os : Option spi.NN) {um2 : UnassignedMethod} (hs : v.search = true → um2 = .ignore) (n : Nat) (label : Option (Blk Int)) (ta : Blk Nat) (rs2 : Bool) (radius2 : F) :
    Tracks (secondRound cfg (spi.watched v) oa os um2 n label ta rs2 radius2) (secondRound cfg spi oa os um2 n label ta rs2 radius2) fun _ => False := by
  unfold secondRound
  by_cases h : um2 ≠ .ignore
  · rw [if_pos h, if_pos h]
    refine tracks_next fun r => ?_
    dsimp only
    refine tracks_bind (tracks_assignUnassigned _ _ _ _ _ _ _ _) (fun _ => tracks_refl _ _) ?_
    rintro _ ⟨-, hv⟩
    exact absurd (hs hv) h
  · rw [if_neg h, if_neg h]; exact tracks_refl _ _

omit [FloatOps F] in
theorem tracks_searchRounds (cfg : Cfg) (n : Nat) (label : Option (Blk Int)) (son : Option (Blk Nat)) (oa os : Option spi.NN) (ta : Blk Nat)
    (um : UnassignedMethod) (rs : Bool) (radius : F) (lenPrimary : Nat) (primary : Option (Buf Nat)) {um2 : UnassignedMethod} (hs : v.search = true → um2 = .ignore) (hc : v.close = false) (rs2 : Bool) (radius2 : F) :
    Tracks (searchRounds cfg (spi.watched v) n label son oa os ta um rs radius lenPrimary primary um2 rs2 radius2)
      (searchRounds cfg spi n label son oa os ta um rs radius lenPrimary primary um2 rs2 radius2) NotOk := by
  unfold searchRounds
  refine tracks_next fun r => ?_
  refine tracks_bind (tracks_assignUnassigned _ _ _ _ _ _ _ _) (fun r => ?_) ?_
  · obtain ⟨ec, l, c⟩ := r
    dsimp only
    by_cases h : ec ≠ .ok
    · rw [if_pos h, if_pos h]
      exact tracks_bind (tracks_closeAll hc _ _ _ _) (fun _ => tracks_refl _ _) fun _ h => h.elim
    · rw [if_neg h, if_neg h]
      exact tracks_bind (tracks_secondRound _ _ _ hs _ _ _ _ _) (fun _ => tracks_bind (tracks_closeAll hc _ _ _ _) (fun _ => tracks_refl _ _) fun _ h => h.elim) fun _ h => h.elim
  · rintro ⟨ec, l, c⟩ ⟨h, -⟩
    dsimp only
    rw [if_pos h]
    exact ends_next fun _ => ends_pure h

omit [FloatOps F] in
theorem tracks_assignRemaining (cfg : Cfg) (n total numSon : Nat) (label : Option (Blk Int)) (son : Option (Blk Nat)) (sr : SeedResult)
    (um : UnassignedMethod) (rs : Bool) (radius : F) (lenPrimary : Nat) (primary : Option (Buf Nat)) {um2 : UnassignedMethod} (hs : v.search = true → um2 = .ignore) (hc : v.close = false) (rs2 : Bool) (radius2 : F) :
    Tracks (assignRemaining cfg (spi.watched v) n total numSon label son sr um rs radius lenPrimary primary um2 rs2 radius2)
      (assignRemaining cfg spi n total numSon label son sr um rs radius lenPrimary primary um2 rs2 radius2) NotOk := by
  unfold assignRemaining
  refine tracks_bind (tracks_initNN _ _ _ _) (fun r => ?_) ?_
  · cases r with
    | error ec => dsimp only; exact tracks_refl _ _
    | ok oa =>
      dsimp only
      refine tracks_bind (tracks_initNN _ _ _ _) (fun r => ?_) ?_
      · cases r with
        | error ec =>
          dsimp only
          exact tracks_next fun _ => tracks_bind (tracks_closeNN hc _) (fun _ => tracks_refl _ _) fun _ h => h.elim
        | ok os =>
          dsimp only
          refine tracks_next fun ta => ?_
          cases ta with
          | none =>
            dsimp only
            exact tracks_next fun _ => tracks_bind (tracks_closeNN hc _) (fun _ => tracks_bind (tracks_closeNN hc _) (fun _ => tracks_refl _ _) fun _ h => h.elim) fun _ h => h.elim
          | some ta => dsimp only; exact tracks_searchRounds _ _ _ _ _ _ _ _ _ _ _ _ hs hc _ _
      · rintro _ ⟨e, rfl, he⟩
        exact ends_next fun _ => ends_next fun _ => ends_pure he
  · rintro _ ⟨e, rfl, he⟩
    exact ends_next fun _ => ends_pure he

omit [FloatOps F] in
theorem tracks_makeClusters (cfg : Cfg) (cl : Clustering) (sr : SeedResult) (nng : Digraph) (ordered : Bool) (um : UnassignedMethod) (rs : Bool) (radius : F)
    (lenPrimary : Nat) (primary : Option (Buf Nat)) {um2 : UnassignedMethod} (rs2 : Bool) (radius2 : F) (hs : v.search = true → um2 = .ignore)
    (hc : v.close = true → (um = .ignore ∨ um = .anyNeighbor) ∧ um2 = .ignore) :
    Tracks (makeClusters cfg (spi.watched v) cl sr nng ordered um rs radius lenPrimary primary um2 rs2 radius2)
      (makeClusters cfg spi cl sr nng ordered um rs radius lenPrimary primary um2 rs2 radius2) NotOk := by
  unfold makeClusters
  refine tracks_next fun r => ?_
  dsimp only
  by_cases h1 : assignDone cl.n r.2 um um2 = true
  · rw [if_pos h1, if_pos h1]; exact tracks_refl _ _
  rw [if_neg h1, if_neg h1]
  refine tracks_next fun son => ?_
  cases son with
  | error ec => dsimp only; exact tracks_refl _ _
  | ok son =>
    dsimp only
    by_cases h2 : um = .anyNeighbor ∨ ordered = true ∧ um = .closestAssigned
    · rw [if_pos h2, if_pos h2]
      refine tracks_next fun r' => ?_
      by_cases h3 : assignDone cl.n (r.2 + r'.2) (afterNng um) um2 = true
      · rw [if_pos h3, if_pos h3]; exact tracks_refl _ _
      · rw [if_neg h3, if_neg h3]
        have hc' : v.close = false := by
          rw [← Bool.not_eq_true]
          intro hv
          obtain ⟨h4, h5⟩ := hc hv
          apply h3
          unfold assignDone afterNng
          rw [decide_eq_true_eq]
          right
          refine ⟨?_, h5⟩
          rcases h4 with rfl | rfl
          · rfl
          · rfl
        refine tracks_next fun _ => tracks_bind (tracks_assignRemaining _ _ _ _ _ _ _ _ _ _ _ _ hs hc' _ _) (fun _ => tracks_refl _ _) fun r hr => ?_
        exact ends_pure hr
    · rw [if_neg h2, if_neg h2]
      have hc' : v.close = false := by
        rw [← Bool.not_eq_true]
        intro hv
        obtain ⟨h4, h5⟩ := hc hv
        rcases h4 with rfl | rfl
        · apply h1
          unfold assignDone
          rw [decide_eq_true_eq]
          exact Or.inr ⟨rfl, h5⟩
        · exact h2 (Or.inl rfl)
      refine tracks_next fun _ => tracks_bind (tracks_assignRemaining _ _ _ _ _ _ _ _ _ _ _ _ hs hc' _ _) (fun _ => tracks_refl _ _) fun r hr => ?_
      exact ends_pure hr

/-! ### The call -/

theorem tracks_clusterByNng (cfg : Cfg) (cl : Clustering) (o : Options F) (m : SeedMethod) (hs : v.search = true → o.secondaryMethod = .ignore)
    (hc : v.close = true → (o.primaryMethod = .ignore ∨ o.primaryMethod = .anyNeighbor) ∧ o.secondaryMethod = .ignore) :
    Tracks (clusterByNng cfg (spi.watched v) cl o m) (clusterByNng cfg spi cl o m) NotOk := by
  unfold clusterByNng
  refine tracks_bind (tracks_buildNng _ _ _) (fun r => ?_) ?_
  · cases r with
    | error ec => dsimp only; exact tracks_refl _ _
    | ok nng =>
      dsimp only
      refine tracks_bind (A := NotOk) ?_ (fun _ => tracks_refl _ _) fun r hr => ends_next fun _ => ends_pure hr
      unfold clusteringFromNng
      refine tracks_next fun sr => ?_
      cases sr with
      | error ec => dsimp only; exact tracks_refl _ _
      | ok sr =>
        dsimp only
        refine tracks_bind (tracks_estimateRadii _ _ _ _ _) (fun r => ?_) ?_
        · cases r with
          | error ec => dsimp only; exact tracks_refl _ _
          | ok r =>
            dsimp only
            refine tracks_next fun l => ?_
            by_cases hl : (!l.1) = true
            · rw [if_pos hl, if_pos hl]; exact tracks_refl _ _
            · rw [if_neg hl, if_neg hl]
              exact tracks_bind (tracks_makeClusters _ _ _ _ _ _ _ _ _ _ _ _ hs hc) (fun _ => tracks_refl _ _) fun r hr => ends_next fun _ => ends_pure hr
        · rintro _ ⟨e, rfl, he⟩
          exact ends_pure he
  · rintro _ ⟨e, rfl, he⟩
    exact ends_pure he

omit [FloatOps F] in
theorem tracks_batchLoop (cfg : Cfg) (o : spi.NN) (ids : BatchIds) (n S : Nat) (ignore rs : Bool) (radius : F) (primary : Option (Buf Bool)) (bs fuel cur : Nat) (r : RunSt) :
    Tracks (batchLoop cfg (spi.watched v) o ids n S ignore rs radius primary bs fuel cur r) (batchLoop cfg spi o ids n S ignore rs radius primary bs fuel cur r) NotOk := by
  induction fuel generalizing cur r with
  | zero =>
    rw [batchLoop.eq_def cfg (spi.watched v) o ids n S ignore rs radius primary bs 0 cur r, batchLoop.eq_def cfg spi o ids n S ignore rs radius primary bs 0 cur r]
    dsimp only
    exact tracks_refl _ _
  | succ fuel ih =>
    rw [batchLoop.eq_def cfg (spi.watched v) o ids n S ignore rs radius primary bs (fuel + 1) cur r, batchLoop.eq_def cfg spi o ids n S ignore rs radius primary bs (fuel + 1) cur r]
    dsimp only
    by_cases h : cur < n
    · rw [if_pos h, if_pos h]
      refine tracks_next fun f => ?_
      by_cases h0 : f.2.2.1 = 0
      · rw [if_pos h0, if_pos h0]; exact tracks_refl _ _
      · rw [if_neg h0, if_neg h0]
        refine tracks_next fun _ => tracks_bind (tracks_search _ _ _ _ _ _ _ _) (fun res => ?_) ?_
        · cases res with
          | none => dsimp only; exact tracks_refl _ _
          | some res =>
            dsimp only
            refine tracks_next fun nn => tracks_next fun c => ?_
            cases c with
            | stop st => dsimp only; exact tracks_refl _ _
            | next st => dsimp only; exact ih _ _
        · rintro _ ⟨rfl, -⟩
          exact ends_bind ends_mkErr fun e he => ends_pure (by show e ≠ .ok; rw [he]; decide)
    · rw [if_neg h, if_neg h]; exact tracks_refl _ _

omit [FloatOps F] in
theorem tracks_runBatches (cfg : Cfg) (o : spi.NN) (ids : BatchIds) (n S : Nat) (ignore rs : Bool) (radius : F) (primary : Option (Buf Bool)) (bs : Nat) (batch out : Buf Nat) (assigned : Buf Bool) (labels : Buf Int) :
    Tracks (runBatches cfg (spi.watched v) o ids n S ignore rs radius primary bs batch out assigned labels) (runBatches cfg spi o ids n S ignore rs radius primary bs batch out assigned labels) NotOk := by
  unfold runBatches
  refine tracks_bind (tracks_batchLoop _ _ _ _ _ _ _ _ _ _ _ _ _) (fun _ => tracks_refl _ _) fun r hr => ?_
  dsimp only
  rw [if_pos hr]
  exact ends_pure hr

theorem tracks_clusterBatches (cfg : Cfg) (cl : Clustering) (S : Nat) (um : UnassignedMethod) (rs : Bool) (radius : F) (lenPrimary : Nat) (primary : Option (Buf Nat)) (batchSize : Nat) (hc : v.close = false) :
    Tracks (clusterBatches cfg (spi.watched v) cl S um rs radius lenPrimary primary batchSize) (clusterBatches cfg spi cl S um rs radius lenPrimary primary batchSize) NotOk := by
  have hclose : ∀ o : spi.NN, Tracks ((spi.watched v).nnClose o) (spi.nnClose o) fun _ => False := fun o => tracks_mono (tracks_close o) (by
    rintro _ ⟨-, h⟩
    rw [hc] at h
    cases h)
  unfold clusterBatches
  have he : batchArgsError (spi.watched v) cl S um rs radius lenPrimary primary = batchArgsError spi cl S um rs radius lenPrimary primary := rfl
  rw [he]
  cases batchArgsError spi cl S um rs radius lenPrimary primary with
  | some e => dsimp only; exact tracks_refl _ _
  | none =>
    dsimp only
    refine tracks_bind (tracks_init _ _) (fun o => ?_) ?_
    · cases o with
      | none => dsimp only; exact tracks_refl _ _
      | some o =>
        dsimp only
        refine tracks_next fun batch => tracks_next fun out => tracks_next fun assigned => ?_
        have hbad : ∀ (batch out : Option (Blk Nat)) (assigned : Option (Blk Bool)), Tracks (do
              freePtr batch
              freePtr out
              freePtr assigned
              let _ ← (spi.watched v).nnClose o
              let e ← mkErr .noMemory "src/nng_batch_clustering.c" 125
              pure (e, cl)) (do
              freePtr batch
              freePtr out
              freePtr assigned
              let _ ← spi.nnClose o
              let e ← mkErr .noMemory "src/nng_batch_clustering.c" 125
              pure (e, cl)) NotOk := fun _ _ _ =>
          tracks_next fun _ => tracks_next fun _ => tracks_next fun _ => tracks_bind (hclose o) (fun _ => tracks_refl _ _) fun _ h => h.elim
        cases batch with
        | none => exact hbad _ _ _
        | some batch =>
          cases out with
          | none => exact hbad _ _ _
          | some out =>
            cases assigned with
            | none => exact hbad _ _ _
            | some assigned =>
              dsimp only
              unfold batchesMain
              refine tracks_next fun l => ?_
              dsimp only
              by_cases hl : (!l.1) = true
              · rw [if_pos hl, if_pos hl]
                exact tracks_next fun _ => tracks_next fun _ => tracks_next fun _ => tracks_bind (hclose o) (fun _ => tracks_refl _ _) fun _ h => h.elim
              · rw [if_neg hl, if_neg hl]
                refine tracks_next fun pr => tracks_bind (tracks_runBatches _ _ _ _ _ _ _ _ _ _ _ _ _ _) (fun r => ?_) fun r hr => ?_
                · exact tracks_next fun _ => tracks_next fun _ => tracks_next fun _ => tracks_next fun _ => tracks_bind (hclose o) (fun _ => tracks_refl _ _) fun _ h => h.elim
                · exact ends_next fun _ => ends_next fun _ => ends_next fun _ => ends_next fun _ => ends_next fun _ => ends_pure hr
    · rintro _ ⟨rfl, -⟩
      exact ends_bind ends_mkErr fun e he => ends_pure (by show e ≠ .ok; rw [he]; decide)

theorem tracks_scClustering (cfg : Cfg) (o : Options F) (p : Option ClObj) (hs : v.search = true → o.secondaryMethod = .ignore ∨ o.seedMethod = .batches)
    (hc : v.close = true → (o.primaryMethod = .ignore ∨ o.primaryMethod = .anyNeighbor) ∧ o.secondaryMethod = .ignore ∧ o.seedMethod ≠ .batches) :
    Tracks (scClustering cfg (spi.watched v) o p) (scClustering cfg spi o p) NotOk := by
  unfold scClustering
  refine tracks_next fun b => ?_
  cases p with
  | none => dsimp only; exact tracks_refl _ _
  | some ob =>
    cases b with
    | false => dsimp only; exact tracks_refl _ _
    | true =>
      dsimp only
      have e1 : (spi.watched v).valid = spi.valid := rfl
      have e2 : (spi.watched v).numPoints = spi.numPoints := rfl
      rw [e1, e2]
      by_cases h1 : (!spi.valid) = true
      · rw [if_pos h1, if_pos h1]; exact tracks_refl _ _
      rw [if_neg h1, if_neg h1]
      by_cases h2 : spi.numPoints ≠ ob.cl.n
      · rw [if_pos h2, if_pos h2]; exact tracks_refl _ _
      rw [if_neg h2, if_neg h2]
      refine tracks_next fun ec => ?_
      by_cases h3 : ec ≠ .ok
      · rw [if_pos h3, if_pos h3]; exact tracks_refl _ _
      rw [if_neg h3, if_neg h3]
      by_cases h4 : ob.cl.numClusters ≠ 0
      · rw [if_pos h4, if_pos h4]; exact tracks_refl _ _
      rw [if_neg h4, if_neg h4]
      cases hm : o.seedMethod with
      | batches =>
        dsimp only
        refine tracks_bind (tracks_clusterBatches _ _ _ _ _ _ _ _ _ ?_) (fun _ => tracks_refl _ _) fun r hr => ends_next fun _ => ends_pure hr
        rw [← Bool.not_eq_true]
        exact fun hv => (hc hv).2.2 hm
      | method m =>
        dsimp only
        refine tracks_bind (tracks_clusterByNng _ _ _ _ (fun hv => ?_) fun hv => ⟨(hc hv).1, (hc hv).2.1⟩) (fun _ => tracks_refl _ _) fun r hr => ends_next fun _ => ends_pure hr
        rcases hs hv with h | h
        · exact h
        · rw [hm] at h; cases h
      | unknown => dsimp only; exact tracks_refl _ _

end Scc
