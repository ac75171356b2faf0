/-
The built-in distance functions and the ANN wrapper report failure, or give the answers that they give when no allocation fails.
-/
import Verif.Proofs.PressApi
import Verif.Model.Ann

namespace Scc

variable {F : Type} [FloatOps F]

/-! ### Loops -/

theorem forLt_congr {σ : Type} {lo hi : Nat} {s : σ} {f g : Nat → σ → Option σ} (h : ∀ i s, lo ≤ i → i < hi → f i s = g i s) : forLt lo hi s f = forLt lo hi s g :=
  foldlM_mem (fun s i hi => by
    rw [List.mem_range'_1] at hi
    exact h i s hi.1 (by omega)) s

theorem foldB_mem {α σ ρ : Type} {f g : σ → α → Option (Ctl σ ρ)} {l : List α} (h : ∀ s e, e ∈ l → f s e = g s e) (s : σ) : foldB f s l = foldB g s l := by
  induction l generalizing s with
  | nil => rfl
  | cons e l ih =>
    unfold foldB
    rw [h s e List.mem_cons_self]
    congr 1
    funext c
    cases c with
    | next s => exact ih (fun s e he => h s e (List.mem_cons_of_mem _ he)) s
    | stop r => rfl

theorem forLtB_congr {σ ρ : Type} {lo hi : Nat} {s : σ} {f g : Nat → σ → Option (Ctl σ ρ)} (h : ∀ i s, lo ≤ i → i < hi → f i s = g i s) : forLtB lo hi s f = forLtB lo hi s g :=
  foldB_mem (fun s i hi => by
    rw [List.mem_range'_1] at hi
    exact h i s hi.1 (by omega)) s

/-- What holds before each round holds at the end. -/
theorem forLt_keep {σ : Type} {I : Nat → σ → Prop} {hi : Nat} {s r : σ} {f : Nat → σ → Option σ} (h0 : I 0 s) (h : ∀ i s s', i < hi → I i s → f i s = some s' → I (i + 1) s')
    (hr : forLt 0 hi s f = some r) : I hi r := by
  unfold forLt at hr
  have : ∀ len lo s, lo + len = hi → I lo s → (List.range' lo len).foldlM (fun s i => f i s) s = some r → I hi r := by
    intro len
    induction len with
    | zero =>
      intro lo s hl hI hs
      cases hs
      rwa [← hl]
    | succ len ih =>
      intro lo s hl hI hs
      rw [List.range'_succ, List.foldlM_cons] at hs
      obtain ⟨t, h1, h2⟩ := Option.bind_eq_some_iff.1 hs
      exact ih (lo + 1) t (by omega) (h lo s t (by omega) hI h1) h2
  exact this _ 0 s (by omega) h0 hr

theorem keeps_freeId {i : Nat} : Keeps (freeId i) fun _ => True := by
  intro w r hr
  unfold freeId at hr
  by_cases hi : i ∈ w.live
  · rw [if_pos hi] at hr
    cases hr
    exact ⟨rfl, trivial⟩
  · rw [if_neg hi] at hr
    cases hr

/-! ### The loop over the queries -/

/-- Going through the queries: those that are answered are noted, and are among those asked. -/
theorem queries_keep {σ : Type} {lenQ : Nat} {queries : Option Arr} {out : OutQ} {s r : σ} {f : Nat → Nat × Buf Nat × σ → Option (Nat × Buf Nat × σ)} {n : Nat} {oq : Buf Nat}
    (h : ∀ q st st', f q st = some st' → ∃ query, queryAt queries out st.2.1 q = some query ∧
      ((st'.1 = st.1 ∧ st'.2.1 = st.2.1) ∨ (st'.1 = st.1 + 1 ∧ (out = .null ∨ st.2.1.set st.1 query = some st'.2.1))))
    (hr : forLt 0 lenQ (0, outQBuf queries out, s) f = some (n, oq, r)) :
    n ≤ lenQ ∧ ∀ a, queries = some a → out = .same → ∀ j, j < n → ∀ p, oq.get j = some p → ∃ i, i < lenQ ∧ a.buf.get i = some p := by
  have := forLt_keep (I := fun i st => st.1 ≤ i ∧ ∀ a, queries = some a → out = .same → (∀ j, st.1 ≤ j → st.2.1.get j = a.buf.get j) ∧
      ∀ j, j < st.1 → ∀ p, st.2.1.get j = some p → ∃ i, i < lenQ ∧ a.buf.get i = some p) ⟨Nat.le_refl _, ?_⟩ ?_ hr
  · exact ⟨this.1, fun a ha ho => (this.2 a ha ho).2⟩
  · rintro a rfl rfl
    exact ⟨fun _ _ => rfl, fun j hj => absurd hj (Nat.not_lt_zero _)⟩
  · rintro i ⟨m, b, s⟩ ⟨m', b', s'⟩ hi ⟨h1, h2⟩ hf
    obtain ⟨query, h3, h4⟩ := h _ _ _ hf
    dsimp only at h1 h2 h3 h4 ⊢
    rcases h4 with ⟨rfl, rfl⟩ | ⟨rfl, h4⟩
    · exact ⟨by omega, h2⟩
    · refine ⟨by omega, ?_⟩
      rintro a rfl rfl
      obtain ⟨h5, h6⟩ := h2 a rfl rfl
      have h4 := h4.resolve_left nofun
      have h3 : b.get i = some query := h3
      rw [h5 i h1] at h3
      have hset := get_set h4
      refine ⟨fun j hj => ?_, fun j hj p hp => ?_⟩
      · rw [hset, if_neg (by omega)]
        exact h5 j (by omega)
      · rw [hset] at hp
        by_cases hj' : j = m
        · rw [if_pos hj'] at hp
          cases hp
          exact ⟨i, hi, h3⟩
        · rw [if_neg hj'] at hp
          exact h6 j (by omega) p hp

theorem outQBuf_eq {q q' : Option Arr} (h : q.map Arr.buf = q'.map Arr.buf) (out : OutQ) : outQBuf q out = outQBuf q' out := by cases out <;> simp only [outQBuf, h]

theorem idxGet_eq {q q' : Option Arr} (h : q.map Arr.buf = q'.map Arr.buf) : idxGet q = idxGet q' := by
  funext i
  cases q with
  | none => cases q' with
    | none => rfl
    | some b => cases h
  | some a => cases q' with
    | none => cases h
    | some b => exact congrArg (fun b => Buf.get b i) (Option.some.inj h)

theorem queryAt_eq {q q' : Option Arr} (h : q.map Arr.buf = q'.map Arr.buf) (out : OutQ) : queryAt q out = queryAt q' out := by
  funext cur i
  cases q with
  | none => cases q' with
    | none => rfl
    | some b => cases h
  | some a => cases q' with
    | none => cases h
    | some b => cases out with
      | same => rfl
      | null => exact congrFun (idxGet_eq h) i
      | buf _ => exact congrFun (idxGet_eq h) i

/-! ### The built-in functions -/

theorem nnQuery_same (ds : DataSet F) (len k : Nat) {p q : Option Arr} (h : SameEntries (max len k) p q) (query : Nat) (rs : Bool) (rsq : F) (base : Nat) (dl : Buf F) (il : Buf Nat) :
    nnQuery ds len p query k rs rsq base dl il = nnQuery ds len q query k rs rsq base dl il := by
  have h1 : ∀ dl il, fillRadius ds len p query k rsq base dl il = fillRadius ds len q query k rsq base dl il := by
    intro dl il
    unfold fillRadius
    congr 1
    refine forLtB_congr fun i s _ hi => ?_
    rw [h.entries i (by omega)]
  have h2 : fillFirst ds p query k base dl il = fillFirst ds q query k base dl il := by
    unfold fillFirst
    refine forLt_congr fun i s _ hi => ?_
    rw [h.entries i (by omega)]
  have h3 : ∀ s dl il, fillRest ds len p query k base s dl il = fillRest ds len q query k base s dl il := by
    intro s dl il
    unfold fillRest
    refine forLt_congr fun i s _ hi => ?_
    rw [h.entries i (by omega)]
  unfold nnQuery
  simp only [h1, h2, h3]

theorem nnSearchK_same (ds : DataSet F) (len : Nat) {p q a b : Option Arr} (lenQ k : Nat) (rs : Bool) (r : F) (out : OutQ) (dl : Buf F) (nn : Buf Nat) (hp : SameEntries (max len k) p q)
    (ha : a.map Arr.buf = b.map Arr.buf) : nnSearchK ds len p lenQ a k rs r out dl nn = nnSearchK ds len q lenQ b k rs r out dl nn := by
  unfold nnSearchK
  simp only [nnQuery_same ds len k hp, outQBuf_eq ha, queryAt_eq ha]

theorem nnSearchK_keep {ds : DataSet F} {len : Nat} {p q : Option Arr} {lenQ k : Nat} {rs : Bool} {r : F} {out : OutQ} {dl : Buf F} {nn : Buf Nat} {res : NNOut}
    (h : nnSearchK ds len p lenQ q k rs r out dl nn = some res) :
    res.numOk ≤ lenQ ∧ ∀ a, q = some a → out = .same → ∀ j, j < res.numOk → ∀ x, res.outQ.get j = some x → ∃ i, i < lenQ ∧ a.buf.get i = some x := by
  unfold nnSearchK at h
  obtain ⟨⟨n, oq, nn', dl'⟩, h1, h2⟩ := Option.bind_eq_some_iff.1 h
  cases h2
  refine queries_keep (fun i st st' hst => ?_) h1
  obtain ⟨m, b, nn, dl⟩ := st
  obtain ⟨query, h3, h4⟩ := Option.bind_eq_some_iff.1 hst
  obtain ⟨⟨found, dl1, nn1⟩, h5, h6⟩ := Option.bind_eq_some_iff.1 h4
  refine ⟨query, h3, ?_⟩
  dsimp only at h6
  by_cases hf : found = k
  · rw [if_pos hf] at h6
    cases out with
    | null => cases h6; exact Or.inr ⟨rfl, Or.inl rfl⟩
    | same =>
      obtain ⟨b', h7, h8⟩ := Option.bind_eq_some_iff.1 h6
      cases h8
      exact Or.inr ⟨rfl, Or.inr h7⟩
    | buf c =>
      obtain ⟨b', h7, h8⟩ := Option.bind_eq_some_iff.1 h6
      cases h8
      exact Or.inr ⟨rfl, Or.inr h7⟩
  · rw [if_neg hf] at h6
    cases h6
    exact Or.inl ⟨rfl, rfl⟩

/-- Search objects that give the same answers when `k` neighbours are asked for. -/
structure SearchSame (k : Nat) (o o' : SearchObj) : Prop where
  len : o.len = o'.len
  search : SameEntries (max o.len k) o.search o'.search

theorem ends_nnSearch {ds : DataSet F} {o : SearchObj} {lenQ : Nat} {q : Option Arr} {k : Nat} {rs : Bool} {r : F} {oq : OutQ} {b : Buf Nat} :
    Ends (nnSearch ds o lenQ q k rs r oq b) fun res => ∀ x, res = some x →
      x.numOk ≤ lenQ ∧ ∀ a, q = some a → oq = .same → ∀ j, j < x.numOk → ∀ p, x.outQ.get j = some p → ∃ i, i < lenQ ∧ a.buf.get i = some p := by
  unfold nnSearch
  refine ends_next fun p => ?_
  cases p with
  | none => exact ends_pure nofun
  | some dl =>
    refine ends_bind (A := fun res => nnSearchK ds o.len o.search lenQ q k rs r oq dl.buf b = some res) ?_ fun res hres => ends_next fun _ => ends_pure ?_
    · exact fun w r h => (keeps_useK (fun a h => h) w r h).2
    · rintro _ ⟨⟩
      exact nnSearchK_keep hres

theorem pair_nnSearch (ds : DataSet F) (o o' : SearchObj) (lenQ : Nat) (q q' : Option Arr) (k : Nat) (rs : Bool) (r : F) (oq : OutQ) (b : Buf Nat) (ho : SearchSame k o o')
    (hq : q.map Arr.buf = q'.map Arr.buf) : Pair never (fun a a' => a = none ∨ a = a') (nnSearch ds o lenQ q k rs r oq b) (nnSearch ds o' lenQ q' k rs r oq b) := by
  unfold nnSearch
  refine pair_bind pair_allocN fun x y hxy => ?_
  obtain ⟨rfl | ⟨i, rfl⟩, j, rfl⟩ := hxy
  · exact pair_keeps (P := fun a => a = none) (Q := fun _ => True) (keeps_pure rfl) (keeps_bind (keeps_useK (P := fun _ => True) fun _ _ => trivial) fun _ _ => keeps_bind keeps_freeId fun _ _ => keeps_pure trivial)
      fun a b ha _ => Or.inl ha
  dsimp only
  rw [← ho.len]
  refine pair_bind (pair_useK (nnSearchK_same ds o.len lenQ k rs r oq _ b ho.search hq)) fun x y hxy => ?_
  subst hxy
  exact pair_bind pair_freeId fun _ _ _ => pair_pure (Or.inr rfl)

/-- The built-in functions. -/
def builtinFirm (p : Option (DataSet F)) : (builtinSpi p).Firm where
  nn := SearchSame
  nnInit len k a a' h := by
    show Pair never _ (searchInit len a) (searchInit len a')
    unfold searchInit
    refine pair_bind pair_allocN fun x y hxy => ?_
    obtain ⟨rfl | ⟨i, rfl⟩, j, rfl⟩ := hxy
    · exact pair_keeps (P := fun a => a = none) (Q := fun _ => True) (keeps_pure rfl) (keeps_pure trivial) fun a b ha _ => Or.inl ha
    · exact pair_pure (Or.inr ⟨_, _, rfl, rfl, rfl, h⟩)
  nnSearch := pair_nnSearch _
  nnClose k o o' h := pair_bind pair_freeId fun _ _ _ => pair_pure rfl
  distRows lenQ q q' lenC c c' out hq hc := by
    refine pair_bind (pair_useK (by unfold distRowsK; rw [idxGet_eq hq, idxGet_eq hc])) fun x y hxy => ?_
    subst hxy
    exact pair_pure (Or.inr rfl)
  answered o lenQ q k r b w res w' h := (ends_nnSearch w _ h res rfl).2 q rfl rfl
  counted o lenQ q k r oq b w res w' h := (ends_nnSearch w _ h res rfl).1

/-! ### The ANN wrapper -/

theorem keeps_alloc {α : Type} {init : Buf α} {c : Bool} : Keeps (alloc init c) fun _ => True := fun _ _ h => ⟨fails_alloc h, trivial⟩

theorem keeps_any {α : Type} {k : Option α} {l : List Nat} : Keeps (useK l k) fun _ => True := keeps_useK fun _ _ => trivial

/-- An outcome that is lost is `none`. -/
theorem pair_weak {α β : Type} {R : Option α → Option β → Prop} {x : M (Option α)} {y : M (Option β)} (h : Pair Lost R x y) (hx : Keeps x fun _ => True) (hy : Keeps y fun _ => True) :
    Pair never (fun a b => a = none ∨ R a b) x y := by
  intro w v r s hw hv h1 h2
  have h3 := (hx w r h1).1
  have h4 := (hy v s h2).1
  refine Or.inr ⟨?_, fun i => by rw [h3]; exact hw i, fun i c => by rw [h4]; exact hv i c⟩
  rcases h w v r s hw hv h1 h2 with h | ⟨h, -⟩
  · exact Or.inl h
  · exact Or.inr h

/-- The library gives positions of points that are in the tree. -/
def AnnLib.InRange (lib : AnnLib F) : Prop :=
  ∀ ds set q k, (∀ p ∈ lib.kSearch ds set q k, p < set.length) ∧ ∀ r, k ≤ (lib.frSearch ds set q r k).1 → ∀ p ∈ (lib.frSearch ds set q r k).2.take k, p < set.length

/-- Search objects that give the same answers. -/
structure AnnSame (o o' : AnnObj) : Prop where
  set : o.set = o'.set
  search : SameEntries o.set.length o.search o'.search

theorem annPoints_same (len : Nat) {a a' : Option Arr} (b : Buf Nat) (h : SameEntries len a a') : annPoints len a b = annPoints len a' b := by
  unfold annPoints
  refine forLt_congr fun i s _ hi => ?_
  rw [h.entries i hi]

theorem annTree_length {ds : DataSet F} {len : Nat} {b : Buf Nat} {l : List Nat} (h : annTree ds len b = some l) : l.length = len := by
  unfold annTree at h
  obtain ⟨l', h1, h2⟩ := Option.bind_eq_some_iff.1 h
  obtain ⟨_, _, h3⟩ := Option.bind_eq_some_iff.1 h2
  cases h3
  exact (Buf.read_eq_some.1 h1).1

theorem keeps_annInit (ds : DataSet F) (len : Nat) (a : Option Arr) : Keeps (annInit ds len a) fun _ => True := by
  unfold annInit
  by_cases hl : intMax < len
  · rw [if_pos hl]; exact keeps_pure trivial
  rw [if_neg hl]
  refine keeps_bind keeps_alloc fun p _ => ?_
  cases p with
  | none => exact keeps_pure trivial
  | some p =>
    refine keeps_bind keeps_alloc fun q _ => ?_
    cases q with
    | none => exact keeps_pure trivial
    | some q =>
      refine keeps_bind keeps_any fun _ _ => keeps_bind keeps_alloc fun t _ => ?_
      cases t with
      | none => exact keeps_bind keeps_freeId fun _ _ => keeps_bind keeps_freeId fun _ _ => keeps_pure trivial
      | some t => exact keeps_bind keeps_any fun _ _ => keeps_pure trivial

theorem pair_annInit (ds : DataSet F) (len : Nat) (a a' : Option Arr) (h : SameEntries len a a') :
    Pair Lost (fun o o' => o = none ∨ ∃ x y, o = some x ∧ o' = some y ∧ AnnSame x y) (annInit ds len a) (annInit ds len a') := by
  unfold annInit
  refine pair_ite Iff.rfl (fun _ => pair_pure (Or.inl rfl)) fun _ => ?_
  refine pair_new pair_get (ends_pure rfl) fun p q hpq => ?_
  cases hpq
  refine pair_new pair_get (ends_pure rfl) fun p q hpq => ?_
  cases hpq
  refine pair_bind (pair_useK (annPoints_same len _ h)) fun b c hbc => ?_
  subst hbc
  refine pair_new pair_get (ends_next fun _ => ends_next fun _ => ends_pure rfl) fun p q hpq => ?_
  cases hpq
  refine pair_bind (pair_useKR (R := fun l l' => l = l' ∧ l.length = len) fun l l' h1 h2 => ?_) fun l l' hl => ?_
  · rw [h1] at h2
    exact ⟨Option.some.inj h2, annTree_length h1⟩
  · obtain ⟨rfl, hl⟩ := hl
    exact pair_pure (Or.inr ⟨_, _, rfl, rfl, rfl, by rw [hl]; exact h⟩)

theorem annStep_same {lib : AnnLib F} (hlib : lib.InRange) (ds : DataSet F) (set : List Nat) {a a' : Option Arr} (h : SameEntries set.length a a') (k : Nat) (rs : Bool) (rsq : F) :
    annStep lib ds set a k rs rsq = annStep lib ds set a' k rs rsq := by
  funext query base nn
  unfold annStep
  congr 1
  funext _
  dsimp only
  by_cases hk : k ≤ (annAnswer lib ds set k rs rsq query).1
  · rw [if_pos hk, if_pos hk]
    congr 1
    refine forLt_congr fun j nn _ hj => ?_
    cases hp : (annAnswer lib ds set k rs rsq query).2[j]? with
    | none => rfl
    | some p =>
      have : p < set.length := by
        unfold annAnswer at hp hk
        cases rs with
        | true =>
          refine (hlib ds set query k).2 rsq hk p ?_
          exact List.mem_of_getElem? (by rw [List.getElem?_take, if_pos hj]; exact hp)
        | false => exact (hlib ds set query k).1 p (List.mem_of_getElem? hp)
      dsimp only [bind, Option.bind]
      rw [h.entries p this]
  · rw [if_neg hk, if_neg hk]

theorem annLoop_same (lenQ : Nat) {q q' : Option Arr} (k : Nat) (out : OutQ) (nn : Buf Nat) (step : Nat → Nat → Buf Nat → Option (Bool × Buf Nat)) (hq : q.map Arr.buf = q'.map Arr.buf) :
    annLoop lenQ q k out nn step = annLoop lenQ q' k out nn step := by
  unfold annLoop
  simp only [outQBuf_eq hq, queryAt_eq hq]

theorem annLoop_keep {lenQ : Nat} {q : Option Arr} {k : Nat} {out : OutQ} {nn : Buf Nat} {step : Nat → Nat → Buf Nat → Option (Bool × Buf Nat)} {res : NNOut} (h : annLoop lenQ q k out nn step = some res) :
    res.numOk ≤ lenQ ∧ ∀ a, q = some a → out = .same → ∀ j, j < res.numOk → ∀ x, res.outQ.get j = some x → ∃ i, i < lenQ ∧ a.buf.get i = some x := by
  unfold annLoop at h
  obtain ⟨⟨n, oq, nn'⟩, h1, h2⟩ := Option.bind_eq_some_iff.1 h
  cases h2
  refine queries_keep (fun i st st' hst => ?_) h1
  obtain ⟨m, b, nn⟩ := st
  obtain ⟨query, h3, h4⟩ := Option.bind_eq_some_iff.1 hst
  obtain ⟨⟨found, nn1⟩, h5, h6⟩ := Option.bind_eq_some_iff.1 h4
  refine ⟨query, h3, ?_⟩
  dsimp only at h6
  cases found with
  | true =>
    cases out with
    | null => cases h6; exact Or.inr ⟨rfl, Or.inl rfl⟩
    | same =>
      obtain ⟨b', h7, h8⟩ := Option.bind_eq_some_iff.1 h6
      cases h8
      exact Or.inr ⟨rfl, Or.inr h7⟩
    | buf c =>
      obtain ⟨b', h7, h8⟩ := Option.bind_eq_some_iff.1 h6
      cases h8
      exact Or.inr ⟨rfl, Or.inr h7⟩
  | false =>
    cases h6
    exact Or.inl ⟨rfl, rfl⟩

theorem ends_useK {α : Type} {l : List Nat} {k : Option α} : Ends (useK l k) fun a => k = some a := fun w r h => (keeps_useK (fun _ h => h) w r h).2

/-- What is said about answers. -/
def AnsweredOk (lenQ : Nat) (q : Option Arr) (oq : OutQ) (res : Option NNOut) : Prop :=
  ∀ x, res = some x → x.numOk ≤ lenQ ∧ ∀ a, q = some a → oq = .same → ∀ j, j < x.numOk → ∀ p, x.outQ.get j = some p → ∃ i, i < lenQ ∧ a.buf.get i = some p

theorem ends_annGeneral (lib : AnnLib F) (ds : DataSet F) (o : AnnObj) (lenQ : Nat) (q : Option Arr) (k : Nat) (rs : Bool) (r : F) (oq : OutQ) (b : Buf Nat) :
    Ends (annGeneral lib ds o lenQ q k rs r oq b) (AnsweredOk lenQ q oq) := by
  unfold annGeneral
  refine ends_next fun p => ?_
  cases p with
  | none => exact ends_pure nofun
  | some i =>
    refine ends_next fun p => ?_
    cases p with
    | none => exact ends_pure nofun
    | some d =>
      refine ends_bind ends_useK fun res hres => ends_next fun _ => ends_next fun _ => ends_pure ?_
      rintro _ ⟨⟩
      exact annLoop_keep hres

theorem ends_annSearch (direct : Bool) (lib : AnnLib F) (ds : DataSet F) (o : AnnObj) (lenQ : Nat) (q : Option Arr) (k : Nat) (rs : Bool) (r : F) (oq : OutQ) (b : Buf Nat) :
    Ends (annSearch direct lib ds o lenQ q k rs r oq b) fun res => (∀ x, res = some x → x.numOk ≤ lenQ) ∧ (rs = true → AnsweredOk lenQ q oq res) := by
  have hg : ∀ (a : Option Arr) (c : OutQ) (e : Buf Nat), Ends (annGeneral lib ds o lenQ a k rs r c e) fun res => ∀ x, res = some x → x.numOk ≤ lenQ :=
    fun a c e w s hs x hx => (ends_annGeneral lib ds o lenQ a k rs r c e w s hs x hx).1
  unfold annSearch
  by_cases hl : intMax < k
  · rw [if_pos hl]; exact ends_pure ⟨nofun, fun _ => nofun⟩
  rw [if_neg hl]
  by_cases hd : (direct && o.search.isNone) = true
  · rw [if_pos hd]
    refine ends_next fun p => ?_
    cases p with
    | none => exact ends_pure ⟨nofun, fun _ => nofun⟩
    | some d =>
      refine ends_bind ends_useK fun res hres => ?_
      cases rs with
      | true =>
        refine ends_next fun _ => ends_pure ?_
        have := annLoop_keep hres
        refine ⟨?_, fun _ => ?_⟩
        · rintro _ ⟨⟩
          exact this.1
        · rintro _ ⟨⟩
          exact this
      | false => exact fun w s hs => ⟨hg _ _ _ w s hs, nofun⟩
  · rw [if_neg hd]
    exact fun w s hs => ⟨hg _ _ _ w s hs, fun _ => ends_annGeneral lib ds o lenQ q k rs r oq b w s hs⟩

theorem keeps_annGeneral (lib : AnnLib F) (ds : DataSet F) (o : AnnObj) (lenQ : Nat) (q : Option Arr) (k : Nat) (rs : Bool) (r : F) (oq : OutQ) (b : Buf Nat) :
    Keeps (annGeneral lib ds o lenQ q k rs r oq b) fun _ => True := by
  unfold annGeneral
  refine keeps_bind keeps_alloc fun p _ => ?_
  cases p with
  | none => exact keeps_pure trivial
  | some i =>
    refine keeps_bind keeps_alloc fun p _ => ?_
    cases p with
    | none => exact keeps_pure trivial
    | some d => exact keeps_bind keeps_any fun _ _ => keeps_bind keeps_freeId fun _ _ => keeps_bind keeps_freeId fun _ _ => keeps_pure trivial

theorem keeps_annSearch (direct : Bool) (lib : AnnLib F) (ds : DataSet F) (o : AnnObj) (lenQ : Nat) (q : Option Arr) (k : Nat) (rs : Bool) (r : F) (oq : OutQ) (b : Buf Nat) :
    Keeps (annSearch direct lib ds o lenQ q k rs r oq b) fun _ => True := by
  unfold annSearch
  by_cases hl : intMax < k
  · rw [if_pos hl]; exact keeps_pure trivial
  rw [if_neg hl]
  by_cases hd : (direct && o.search.isNone) = true
  · rw [if_pos hd]
    refine keeps_bind keeps_alloc fun p _ => ?_
    cases p with
    | none => exact keeps_pure trivial
    | some d =>
      refine keeps_bind keeps_any fun _ _ => ?_
      cases rs with
      | true => exact keeps_bind keeps_freeId fun _ _ => keeps_pure trivial
      | false => exact keeps_annGeneral _ _ _ _ _ _ _ _ _ _
  · rw [if_neg hd]
    exact keeps_annGeneral _ _ _ _ _ _ _ _ _ _

theorem pair_annGeneral {lib : AnnLib F} (hlib : lib.InRange) (ds : DataSet F) {o o' : AnnObj} (lenQ : Nat) {q q' : Option Arr} (k : Nat) (rs : Bool) (r : F) (oq : OutQ) (b : Buf Nat) (ho : AnnSame o o')
    (hq : q.map Arr.buf = q'.map Arr.buf) : Pair Lost Eq (annGeneral lib ds o lenQ q k rs r oq b) (annGeneral lib ds o' lenQ q' k rs r oq b) := by
  unfold annGeneral
  refine pair_new pair_get (ends_pure rfl) fun p q hpq => ?_
  cases hpq
  refine pair_new pair_get (ends_pure rfl) fun p q hpq => ?_
  cases hpq
  dsimp only
  refine pair_bind (pair_useK ?_) fun x y hxy => ?_
  · rw [← ho.set, annStep_same hlib ds o.set ho.search]
    exact annLoop_same _ _ _ _ _ hq
  subst hxy
  exact pair_bind pair_freeId fun _ _ _ => pair_bind pair_freeId fun _ _ _ => pair_pure rfl

theorem pair_annSearch (direct : Bool) {lib : AnnLib F} (hlib : lib.InRange) (ds : DataSet F) {o o' : AnnObj} (lenQ : Nat) {q q' : Option Arr} (k : Nat) (rs : Bool) (r : F) (oq : OutQ) (b : Buf Nat)
    (ho : AnnSame o o') (hq : q.map Arr.buf = q'.map Arr.buf) : Pair Lost Eq (annSearch direct lib ds o lenQ q k rs r oq b) (annSearch direct lib ds o' lenQ q' k rs r oq b) := by
  unfold annSearch
  rw [ho.search.null]
  refine pair_ite Iff.rfl (fun _ => pair_pure rfl) fun _ => pair_ite Iff.rfl (fun _ => ?_) fun _ => pair_annGeneral hlib ds _ _ _ _ _ _ ho hq
  refine pair_new pair_get (ends_pure rfl) fun p q hpq => ?_
  cases hpq
  dsimp only
  refine pair_bind (pair_useK ?_) fun x y hxy => ?_
  · rw [← ho.set]
    exact annLoop_same _ _ _ _ _ hq
  subst hxy
  refine pair_ite Iff.rfl (fun _ => pair_bind pair_freeId fun _ _ _ => pair_pure rfl) fun _ => pair_annGeneral hlib ds _ _ _ _ _ _ ho ?_
  cases oq with
  | same =>
    show (Option.map _ _).map _ = (Option.map _ _).map _
    rw [Option.map_map, Option.map_map]
    have := congrArg (Option.map fun _ : Buf Nat => x.outQ) hq
    rw [Option.map_map, Option.map_map] at this
    exact this
  | null => exact hq
  | buf _ => exact hq

/-- The ANN wrapper, if the library gives positions of points that are in the tree. -/
def annFirm (direct : Bool) {lib : AnnLib F} (hlib : lib.InRange) (p : Option (DataSet F)) : (annSpi direct lib p).Firm where
  nn _ := AnnSame
  nnInit len k a a' h := by
    refine pair_mono (pair_weak (pair_annInit _ len a a' ⟨h.null, fun i hi => h.entries i (by omega)⟩) (keeps_annInit _ _ _) (keeps_annInit _ _ _)) (fun _ => id) fun o o' h => ?_
    exact h.elim Or.inl id
  nnSearch o o' lenQ q q' k rs r oq b ho hq := pair_weak (pair_annSearch direct hlib _ lenQ k rs r oq b ho hq) (keeps_annSearch _ _ _ _ _ _ _ _ _ _ _) (keeps_annSearch _ _ _ _ _ _ _ _ _ _ _)
  nnClose k o o' h := pair_bind pair_freeId fun _ _ _ => pair_bind pair_freeId fun _ _ _ => pair_bind pair_freeId fun _ _ _ => pair_pure rfl
  distRows := (builtinFirm p).distRows
  answered o lenQ q k r b w res w' h := ((ends_annSearch _ _ _ _ _ _ _ _ _ _ _ w _ h).2 rfl res rfl).2 q rfl rfl
  counted o lenQ q k r oq b w res w' h := (ends_annSearch _ _ _ _ _ _ _ _ _ _ _ w _ h).1 res rfl

end Scc
