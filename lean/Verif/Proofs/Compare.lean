/-
Only comparisons of distances matter: the kernels of the built-in back end.
-/
import Verif.Spec.Compare
import Verif.Proofs.DistSearch

namespace Scc

variable {F G : Type} [FloatOps F] [FloatOps G]

/-! ### Related computations -/

section Rules
variable {α β γ δ σ τ ρ π : Type} {R : α → β → Prop} {Q : γ → δ → Prop}

theorem rel_bind {x : Option α} {y : Option β} {f : α → Option γ} {g : β → Option δ} (hx : Option.Rel R x y) (hf : ∀ a b, R a b → Option.Rel Q (f a) (g b)) :
    Option.Rel Q (x >>= f) (y >>= g) := by
  cases hx with
  | none => exact .none
  | some h => exact hf _ _ h

theorem rel_pure {a : α} {b : β} (h : R a b) : Option.Rel R (pure a) (pure b) := .some h

theorem rel_refl {x : Option α} : Option.Rel Eq x x := by
  cases x with
  | none => exact .none
  | some a => exact .some rfl

theorem rel_eq {x y : Option α} (h : Option.Rel Eq x y) : x = y := by
  cases h with
  | none => rfl
  | some h => rw [h]

theorem rel_mono {R' : α → β → Prop} {x : Option α} {y : Option β} (h : Option.Rel R x y) (hm : ∀ a b, R a b → R' a b) : Option.Rel R' x y := by
  cases h with
  | none => exact .none
  | some h => exact .some (hm _ _ h)

/-- The same value is read in both. -/
theorem rel_next {x : Option σ} {f : σ → Option γ} {g : σ → Option δ} (hf : ∀ a, Option.Rel Q (f a) (g a)) : Option.Rel Q (x >>= f) (x >>= g) :=
  rel_bind rel_refl fun a b h => h ▸ hf a

theorem rel_ite {c c' : Prop} [Decidable c] [Decidable c'] {x y : Option α} {x' y' : Option β} (hc : c ↔ c') (hx : c → Option.Rel R x x') (hy : ¬ c → Option.Rel R y y') :
    Option.Rel R (if c then x else y) (if c' then x' else y') := by
  by_cases h : c
  · rw [if_pos h, if_pos (hc.1 h)]; exact hx h
  · rw [if_neg h, if_neg fun h' => h (hc.2 h')]; exact hy h

theorem rel_foldlM {f : α → σ → Option α} {g : β → σ → Option β} (l : List σ) (hf : ∀ a b i, R a b → Option.Rel R (f a i) (g b i)) {a : α} {b : β} (h : R a b) :
    Option.Rel R (l.foldlM f a) (l.foldlM g b) := by
  induction l generalizing a b with
  | nil => exact .some h
  | cons i l ih =>
    rw [List.foldlM_cons, List.foldlM_cons]
    exact rel_bind (hf a b i h) fun a b h => ih h

theorem rel_forLt {lo hi : Nat} {a : α} {b : β} {f : Nat → α → Option α} {g : Nat → β → Option β} (h : R a b) (hf : ∀ i a b, R a b → Option.Rel R (f i a) (g i b)) :
    Option.Rel R (forLt lo hi a f) (forLt lo hi b g) := rel_foldlM _ (fun a b i h => hf i a b h) h

theorem rel_forNe {lo hi : Nat} {a : α} {b : β} {f : Nat → α → Option α} {g : Nat → β → Option β} (h : R a b) (hf : ∀ i a b, R a b → Option.Rel R (f i a) (g i b)) :
    Option.Rel R (forNe lo hi a f) (forNe lo hi b g) := by
  unfold forNe
  exact rel_ite Iff.rfl (fun _ => rel_foldlM _ (fun a b i h => hf i a b h) h) fun _ => .none

/-- The same outcome of a loop body, with related values. -/
inductive CtlPair (R : α → β → Prop) (Q : γ → δ → Prop) : Ctl α γ → Ctl β δ → Prop
  | next {a b} : R a b → CtlPair R Q (.next a) (.next b)
  | stop {a b} : Q a b → CtlPair R Q (.stop a) (.stop b)

theorem rel_foldB {f : α → σ → Option (Ctl α γ)} {g : β → σ → Option (Ctl β δ)} (l : List σ) (hf : ∀ a b i, R a b → Option.Rel (CtlPair R Q) (f a i) (g b i)) {a : α} {b : β} (h : R a b) :
    Option.Rel (CtlPair R Q) (foldB f a l) (foldB g b l) := by
  induction l generalizing a b with
  | nil => exact .some (.next h)
  | cons i l ih =>
    unfold foldB
    refine rel_bind (hf a b i h) fun c d h => ?_
    cases h with
    | next h => exact ih h
    | stop h => exact .some (.stop h)

theorem rel_forLtB {lo hi : Nat} {a : α} {b : β} {f : Nat → α → Option (Ctl α γ)} {g : Nat → β → Option (Ctl β δ)} (h : R a b)
    (hf : ∀ i a b, R a b → Option.Rel (CtlPair R Q) (f i a) (g i b)) : Option.Rel (CtlPair R Q) (forLtB lo hi a f) (forLtB lo hi b g) :=
  rel_foldB _ (fun a b i h => hf i a b h) h

/-- Arrays of the same length with related cells. -/
structure BufAlike (R : α → β → Prop) (b : Buf α) (c : Buf β) : Prop where
  len : b.len = c.len
  cell : ∀ i, Option.Rel R (b.cell i) (c.cell i)

theorem bufAlike_raw (n : Nat) : BufAlike R (Buf.raw n) (Buf.raw n) := ⟨rfl, fun _ => .none⟩

theorem BufAlike.get {b : Buf α} {c : Buf β} (h : BufAlike R b c) (i : Nat) : Option.Rel R (b.get i) (c.get i) := by
  unfold Buf.get
  exact rel_ite (by rw [h.len]) (fun _ => h.cell i) fun _ => .none

theorem BufAlike.upd {b : Buf α} {c : Buf β} (h : BufAlike R b c) {x : α} {y : β} (hx : R x y) (i : Nat) : BufAlike R (b.upd i x) (c.upd i y) :=
  ⟨h.len, fun j => by
    show Option.Rel R (if j = i then some x else b.cell j) (if j = i then some y else c.cell j)
    exact rel_ite Iff.rfl (fun _ => .some hx) fun _ => h.cell j⟩

theorem BufAlike.set {b : Buf α} {c : Buf β} (h : BufAlike R b c) {x : α} {y : β} (hx : R x y) (i : Nat) : Option.Rel (BufAlike R) (b.set i x) (c.set i y) := by
  unfold Buf.set
  exact rel_ite (by rw [h.len]) (fun _ => .some (h.upd hx i)) fun _ => .none

theorem BufAlike.drop {b : Buf α} {c : Buf β} (h : BufAlike R b c) (i : Nat) : BufAlike R (b.drop i) (c.drop i) := ⟨by show b.len - i = c.len - i; rw [h.len], fun j => h.cell (i + j)⟩

theorem BufAlike.read {b : Buf α} {c : Buf β} (h : BufAlike R b c) (n : Nat) : Option.Rel (List.Forall₂ R) (b.read n) (c.read n) := by
  induction n with
  | zero => exact .some .nil
  | succ n ih => exact rel_bind ih fun l l' hl => rel_bind (h.get n) fun x y hx => .some (List.rel_append hl (.cons hx .nil))

/-- Computations that end in the same world, with related results. -/
def Sim (R : α → β → Prop) (x : M α) (y : M β) : Prop := ∀ w, Option.Rel (fun a b => R a.1 b.1 ∧ a.2 = b.2) (x w) (y w)

theorem sim_bind {x : M α} {y : M β} {f : α → M γ} {g : β → M δ} (hx : Sim R x y) (hf : ∀ a b, R a b → Sim Q (f a) (g b)) : Sim Q (x >>= f) (y >>= g) := by
  intro w
  show Option.Rel _ ((x w).bind fun p => f p.1 p.2) ((y w).bind fun p => g p.1 p.2)
  refine rel_bind (hx w) fun ⟨a, v⟩ ⟨b, v'⟩ hab => ?_
  obtain ⟨h1, h2⟩ := hab
  dsimp only at h1 h2
  subst h2
  exact hf a b h1 v

theorem sim_pure {a : α} {b : β} (h : R a b) : Sim R (pure a) (pure b) := fun _ => .some ⟨h, rfl⟩

theorem sim_refl {x : M α} : Sim Eq x x := by
  intro w
  cases x w with
  | none => exact .none
  | some a => exact .some ⟨rfl, rfl⟩

theorem sim_eq {x y : M α} (h : Sim Eq x y) : x = y := by
  funext w
  refine rel_eq (rel_mono (h w) ?_)
  rintro ⟨a, v⟩ ⟨b, v'⟩ ⟨h1, h2⟩
  dsimp only at h1 h2
  rw [h1, h2]

theorem sim_mono {R' : α → β → Prop} {x : M α} {y : M β} (h : Sim R x y) (hm : ∀ a b, R a b → R' a b) : Sim R' x y := fun w => rel_mono (h w) fun a b hab => ⟨hm _ _ hab.1, hab.2⟩

theorem sim_next {x : M σ} {f : σ → M γ} {g : σ → M δ} (hf : ∀ a, Sim Q (f a) (g a)) : Sim Q (x >>= f) (x >>= g) := sim_bind sim_refl fun a b h => h ▸ hf a

theorem sim_useK {k : Option α} {k' : Option β} (ids : List Nat) (hk : Option.Rel R k k') : Sim R (useK ids k) (useK ids k') := by
  intro w
  unfold useK
  refine rel_ite Iff.rfl (fun _ => ?_) fun _ => .none
  cases hk with
  | none => exact .none
  | some h => exact .some ⟨h, rfl⟩

/-- Blocks at the same address with related contents. -/
structure BlocksAlike (R : α → β → Prop) (b : Blk α) (c : Blk β) : Prop where
  id : b.id = c.id
  buf : BufAlike R b.buf c.buf

theorem sim_allocs (b : Buf α) (c : Buf β) (checked : Bool) : Sim (Option.Rel fun x y => x.id = y.id ∧ x.buf = b ∧ y.buf = c) (alloc b checked) (alloc c checked) := by
  intro w
  unfold alloc
  exact rel_ite Iff.rfl (fun _ => .some ⟨.none, rfl⟩) fun _ => .some ⟨.some ⟨rfl, rfl, rfl⟩, rfl⟩

theorem sim_alloc {b : Buf α} {c : Buf β} (h : BufAlike R b c) (checked : Bool) : Sim (Option.Rel (BlocksAlike R)) (alloc b checked) (alloc c checked) := by
  intro w
  unfold alloc
  exact rel_ite Iff.rfl (fun _ => .some ⟨.none, rfl⟩) fun _ => .some ⟨.some ⟨rfl, h⟩, rfl⟩

end Rules

/-! ### Distances -/

theorem Exact_get_none {ds : DataSet F} (h : ds.Exact) {i t : Nat} (hi : ds.n ≤ i) : ds.buf.get (i * ds.dims + t) = none := by
  unfold Buf.get
  rw [if_neg]
  rw [h.len]
  have := Nat.mul_le_mul_right ds.dims hi
  omega

theorem DataSet.Exact.dims {ds : DataSet F} (h : ds.Exact) : 0 < ds.dims := by
  have := h.init
  unfold DataSet.isInitialized at this
  by_contra hc
  have h0 : ds.dims = 0 := by omega
  rw [if_pos h0] at this
  split at this <;> simp at this

theorem sqDist_out {ds : DataSet F} (h : ds.Exact) {i j : Nat} (hi : ds.n ≤ i ∨ ds.n ≤ j) : sqDist ds i j = none := by
  obtain ⟨d, hd⟩ : ∃ d, ds.dims = d + 1 := ⟨ds.dims - 1, by have := h.dims; omega⟩
  unfold sqDist forNe
  rw [if_pos (Nat.zero_le _), hd, Nat.sub_zero, List.range'_succ, List.foldlM_cons, ← hd]
  dsimp only
  rcases hi with hi | hi
  · rw [Exact_get_none h hi]; rfl
  · rw [Exact_get_none h hi]
    cases ds.buf.get (i * ds.dims + 0) <;> rfl

/-- The squared distances from one point, in both data sets. -/
def RowPair (ds : DataSet F) (ds' : DataSet G) (q : Nat) (x : F) (y : G) : Prop := ∃ j, j < ds.n ∧ x = ds.sqd q j ∧ y = ds'.sqd q j

theorem sqDist_rel {ds : DataSet F} {ds' : DataSet G} (h : ds.Exact) (h' : ds'.Exact) (hn : ds.n = ds'.n) (i j : Nat) :
    Option.Rel (fun x y => i < ds.n ∧ j < ds.n ∧ x = ds.sqd i j ∧ y = ds'.sqd i j) (sqDist ds i j) (sqDist ds' i j) := by
  by_cases hi : i < ds.n ∧ j < ds.n
  · rw [sqDist_eq h.complete hi.1 hi.2, sqDist_eq h'.complete (hn ▸ hi.1) (hn ▸ hi.2)]
    exact .some ⟨hi.1, hi.2, rfl, rfl⟩
  · have hi : ds.n ≤ i ∨ ds.n ≤ j := by omega
    rw [sqDist_out h hi, sqDist_out h' (hn ▸ hi)]
    exact .none

/-! ### The nearest neighbour search -/

/-- Two numbers that belong together, within a set of pairs that compare alike. -/
def Alike (D : F → G → Prop) : Prop := ∀ x y x' y', D x x' → D y y' → SameCmp x y x' y'

theorem rowPair_alike {ds : DataSet F} {ds' : DataSet G} (h : SameNear ds ds') {q : Nat} (hq : q < ds.n) : Alike (RowPair ds ds' q) := by
  rintro _ _ _ _ ⟨j, hj, rfl, rfl⟩ ⟨k, hk, rfl, rfl⟩
  exact h.near q j k hq hj hk

/-- Arrays of length `L` whose first `m` cells belong together. -/
structure PreAlike (D : F → G → Prop) (L m : Nat) (b : Buf F) (c : Buf G) : Prop where
  len : b.len = L
  len' : c.len = L
  cell : ∀ i, i < m → Option.Rel D (b.cell i) (c.cell i)

omit [FloatOps F] [FloatOps G] in
theorem PreAlike.get {D : F → G → Prop} {L m : Nat} {b : Buf F} {c : Buf G} (h : PreAlike D L m b c) {i : Nat} (hi : i < m) : Option.Rel D (b.get i) (c.get i) := by
  unfold Buf.get
  exact rel_ite (by rw [h.len, h.len']) (fun _ => h.cell i hi) fun _ => .none

omit [FloatOps F] [FloatOps G] in
theorem PreAlike.set {D : F → G → Prop} {L m : Nat} {b : Buf F} {c : Buf G} (h : PreAlike D L m b c) {x : F} {y : G} (hx : D x y) {i : Nat} (hi : i ≤ m) :
    Option.Rel (PreAlike D L (max m (i + 1))) (b.set i x) (c.set i y) := by
  unfold Buf.set
  refine rel_ite (by rw [h.len, h.len']) (fun _ => .some ⟨h.len, h.len', fun j hj => ?_⟩) fun _ => .none
  show Option.Rel D (if j = i then some x else b.cell j) (if j = i then some y else c.cell j)
  exact rel_ite Iff.rfl (fun _ => .some hx) fun hne => h.cell j (by omega)

omit [FloatOps F] [FloatOps G] in
theorem PreAlike.mono {D : F → G → Prop} {L m k : Nat} {b : Buf F} {c : Buf G} (h : PreAlike D L m b c) (hk : k ≤ m) : PreAlike D L k b c := ⟨h.len, h.len', fun i hi => h.cell i (by omega)⟩

/-- Lists of distances of which the first `m` belong together, and the same list of points. -/
def ListsAlike (D : F → G → Prop) (L m : Nat) (a : Buf F × Buf Nat) (b : Buf G × Buf Nat) : Prop := PreAlike D L m a.1 b.1 ∧ a.2 = b.2

theorem addDist_rel {D : F → G → Prop} (hD : Alike D) {add : F} {add' : G} (ha : D add add') (ix base : Nat) {p L m : Nat} (hp : p ≤ m) {dl : Buf F} {dl' : Buf G} (hd : PreAlike D L m dl dl') (il : Buf Nat) :
    Option.Rel (ListsAlike D L (max m (p + 1))) (addDist add ix base p dl il) (addDist add' ix base p dl' il) := by
  induction p generalizing dl dl' il m with
  | zero =>
    unfold addDist
    exact rel_bind (hd.set ha hp) fun d d' h => rel_next fun il => .some ⟨h, rfl⟩
  | succ p ih =>
    unfold addDist
    refine rel_bind (hd.get hp) fun x y hx => rel_ite (by rw [(hD _ _ _ _ ha hx).1]) (fun _ => ?_) fun _ => ?_
    · refine rel_bind (hd.set hx hp) fun d d' h => rel_next fun z => rel_next fun il => ?_
      refine rel_mono (ih (by omega) h il) fun a b hab => ⟨hab.1.mono (by omega), hab.2⟩
    · exact rel_bind (hd.set ha hp) fun d d' h => rel_next fun il => .some ⟨h, rfl⟩

section Search
variable {ds : DataSet F} {ds' : DataSet G} (h : SameNear ds ds')
include h

theorem row_rel (q j : Nat) : Option.Rel (fun x y => q < ds.n ∧ RowPair ds ds' q x y) (sqDist ds q j) (sqDist ds' q j) :=
  rel_mono (sqDist_rel h.exact h.exact' h.num q j) fun _ _ hx => ⟨hx.1, j, hx.2⟩

theorem fillRadius_rel {r : F} {r' : G} (hr : SameRadius ds ds' r r') (len : Nat) (search : Option Arr) (q k base : Nat) {dl : Buf F} {dl' : Buf G} {L : Nat} (hd : dl.len = L) (hd' : dl'.len = L) (il : Buf Nat) :
    Option.Rel (fun a b => a.1 = b.1 ∧ a.2.1 = b.2.1 ∧ (a.1 = len ∨ a.2.1 = k) ∧ ListsAlike (RowPair ds ds' q) L a.2.1 a.2.2 b.2.2) (fillRadius ds len search q k (FloatOps.mul r r) base dl il)
      (fillRadius ds' len search q k (FloatOps.mul r' r') base dl' il) := by
  unfold fillRadius
  refine rel_bind (R := CtlPair (fun a b => PreAlike (RowPair ds ds' q) L a.2.2 a.1 b.1 ∧ a.2 = b.2)
    (fun a b => a.1 = b.1 ∧ a.2.1 = b.2.1 ∧ (a.1 = len ∨ a.2.1 = k) ∧ ListsAlike (RowPair ds ds' q) L a.2.1 a.2.2 b.2.2)) ?_ ?_
  · refine rel_forLtB ⟨⟨hd, hd', fun i hi => absurd hi (Nat.not_lt_zero i)⟩, rfl⟩ fun i ⟨a, b, c⟩ ⟨a', b', c'⟩ ⟨h1, h2⟩ => ?_
    cases h2
    refine rel_ite Iff.rfl (fun hc => .some (.stop ⟨rfl, rfl, Or.inr hc, h1, rfl⟩)) fun _ => rel_next fun j => rel_bind (row_rel h q j) fun x y hx => ?_
    obtain ⟨hq, j, hj, rfl, rfl⟩ := hx
    refine rel_ite (by rw [hr.within q j hq hj]) (fun _ => .some (.next ⟨h1, rfl⟩)) fun _ => ?_
    refine rel_bind (addDist_rel (rowPair_alike h hq) ⟨j, hj, rfl, rfl⟩ _ _ (Nat.le_refl _) h1 _) fun ⟨d, l⟩ ⟨d', l'⟩ ⟨g1, g2⟩ => .some (.next ⟨g1.mono (by simp), ?_⟩)
    cases g2; rfl
  · intro x y hxy
    cases hxy with
    | next hab =>
      rename_i a b
      obtain ⟨a1, a2, a3⟩ := a
      obtain ⟨b1, b2, b3⟩ := b
      obtain ⟨h1, h2⟩ := hab
      cases h2
      exact .some ⟨rfl, rfl, Or.inl rfl, h1, rfl⟩
    | stop h1 => exact .some h1

theorem fillFirst_rel (search : Option Arr) (q k base : Nat) {dl : Buf F} {dl' : Buf G} {L : Nat} (hd : dl.len = L) (hd' : dl'.len = L) (il : Buf Nat) :
    Option.Rel (ListsAlike (RowPair ds ds' q) L k) (fillFirst ds search q k base dl il) (fillFirst ds' search q k base dl' il) := by
  unfold fillFirst forLt
  rw [Nat.sub_zero]
  have key : ∀ m s, ∀ (a : Buf F × Buf Nat) (b : Buf G × Buf Nat), ListsAlike (RowPair ds ds' q) L s a b →
      Option.Rel (ListsAlike (RowPair ds ds' q) L (s + m))
        ((List.range' s m).foldlM (fun (x : Buf F × Buf Nat) s => do
          let j ← idxGet search s
          let d ← sqDist ds q j
          addDist d j base s x.1 x.2) a)
        ((List.range' s m).foldlM (fun (x : Buf G × Buf Nat) s => do
          let j ← idxGet search s
          let d ← sqDist ds' q j
          addDist d j base s x.1 x.2) b) := by
    intro m
    induction m with
    | zero => intro s a b hab; exact .some hab
    | succ m ih =>
      rintro s ⟨a1, a2⟩ ⟨b1, b2⟩ ⟨g1, g2⟩
      dsimp only at g1 g2
      subst g2
      rw [List.range'_succ, List.foldlM_cons, List.foldlM_cons, show s + (m + 1) = s + 1 + m by omega]
      refine rel_bind (R := ListsAlike (RowPair ds ds' q) L (s + 1)) ?_ fun a b hab => ih _ _ _ hab
      refine rel_next fun j => rel_bind (row_rel h q j) fun x y hx => ?_
      exact rel_mono (addDist_rel (rowPair_alike h hx.1) hx.2 _ _ (Nat.le_refl _) g1 _) fun a b hab => ⟨hab.1.mono (by simp), hab.2⟩
  have := key k 0 (dl, il) (dl', il) ⟨⟨hd, hd', fun i hi => absurd hi (Nat.not_lt_zero i)⟩, rfl⟩
  rw [Nat.zero_add] at this
  exact this

theorem fillRest_rel (len : Nat) (search : Option Arr) (q k base s m : Nat) {dl : Buf F} {dl' : Buf G} (hd : PreAlike (RowPair ds ds' q) k m dl dl') (hm : len ≤ s ∨ m = k) (il : Buf Nat) :
    Option.Rel (ListsAlike (RowPair ds ds' q) k m) (fillRest ds len search q k base s dl il) (fillRest ds' len search q k base s dl' il) := by
  rcases hm with hm | rfl
  · unfold fillRest forLt
    rw [Nat.sub_eq_zero_of_le hm]
    exact .some ⟨hd, rfl⟩
  refine rel_forLt ⟨hd, rfl⟩ fun i ⟨a, b⟩ ⟨a', b'⟩ ⟨h1, h2⟩ => ?_
  cases h2
  refine rel_next fun j => rel_bind (row_rel h q j) fun x y hx => ?_
  by_cases hm : m = 0
  · subst hm
    have e1 : a.get (0 - 1) = none := by unfold Buf.get; rw [if_neg (by rw [h1.len]; omega)]
    have e2 : a'.get (0 - 1) = none := by unfold Buf.get; rw [if_neg (by rw [h1.len']; omega)]
    rw [e1, e2]
    exact .none
  refine rel_bind (h1.get (by omega)) fun z z' hz => ?_
  refine rel_ite (by rw [(rowPair_alike h hx.1 _ _ _ _ hz hx.2).2]) (fun _ => .some ⟨h1, rfl⟩) fun _ => ?_
  exact rel_mono (addDist_rel (rowPair_alike h hx.1) hx.2 _ _ (by omega) h1 _) fun a b hab => ⟨hab.1.mono (by omega), hab.2⟩

theorem nnQuery_rel {rs : Bool} {r : F} {r' : G} (hr : rs = true → SameRadius ds ds' r r') (len : Nat) (search : Option Arr) (q k base : Nat) {dl : Buf F} {dl' : Buf G} (hd : dl.len = k) (hd' : dl'.len = k)
    (il : Buf Nat) : Option.Rel (fun a b => a.1 = b.1 ∧ a.2.1.len = k ∧ b.2.1.len = k ∧ a.2.2 = b.2.2) (nnQuery ds len search q k rs (FloatOps.mul r r) base dl il)
      (nnQuery ds' len search q k rs (FloatOps.mul r' r') base dl' il) := by
  unfold nnQuery
  refine rel_ite Iff.rfl (fun hrs => ?_) fun _ => ?_
  · refine rel_bind (fillRadius_rel h (hr hrs) len search q k base hd hd' il) fun ⟨s, f, d, l⟩ ⟨s', f', d', l'⟩ ⟨h1, h2, h3, h4, h5⟩ => ?_
    dsimp only at h1 h2 h3 h4 h5
    subst h1 h2 h5
    refine rel_bind (fillRest_rel h len search q k base s f h4 (h3.imp (fun h => h.ge) id) l) fun ⟨a, b⟩ ⟨a', b'⟩ ⟨g1, g2⟩ => ?_
    exact .some ⟨rfl, g1.len, g1.len', g2⟩
  · refine rel_bind (fillFirst_rel h search q k base hd hd' il) fun ⟨d, l⟩ ⟨d', l'⟩ ⟨h4, h5⟩ => ?_
    dsimp only at h4 h5
    subst h5
    refine rel_bind (fillRest_rel h len search q k base k k h4 (Or.inr rfl) l) fun ⟨a, b⟩ ⟨a', b'⟩ ⟨g1, g2⟩ => ?_
    exact .some ⟨rfl, g1.len, g1.len', g2⟩

theorem nnSearchK_rel {rs : Bool} {r : F} {r' : G} (hr : rs = true → SameRadius ds ds' r r') (len : Nat) (search : Option Arr) (lenQ : Nat) (queries : Option Arr) (k : Nat) (out : OutQ)
    {dl : Buf F} {dl' : Buf G} (hd : dl.len = k) (hd' : dl'.len = k) (nn : Buf Nat) :
    nnSearchK ds len search lenQ queries k rs r out dl nn = nnSearchK ds' len search lenQ queries k rs r' out dl' nn := by
  unfold nnSearchK
  refine rel_eq (rel_bind (R := fun a b => a.1 = b.1 ∧ a.2.1 = b.2.1 ∧ a.2.2.1 = b.2.2.1 ∧ a.2.2.2.len = k ∧ b.2.2.2.len = k) ?_ ?_)
  · refine rel_forLt ⟨rfl, rfl, rfl, hd, hd'⟩ fun i ⟨a, b, c, d⟩ ⟨a', b', c', d'⟩ ⟨h1, h2, h3, h4, h5⟩ => ?_
    dsimp only at h1 h2 h3 h4 h5
    subst h1 h2 h3
    refine rel_next fun q => rel_bind (nnQuery_rel h hr len search q k _ h4 h5 _) fun ⟨x, y, z⟩ ⟨x', y', z'⟩ ⟨g1, g2, g3, g4⟩ => ?_
    dsimp only at g1 g2 g3 g4
    subst g1 g4
    refine rel_ite Iff.rfl (fun _ => ?_) fun _ => .some ⟨rfl, rfl, rfl, g2, g3⟩
    cases out with
    | null => exact .some ⟨rfl, rfl, rfl, g2, g3⟩
    | same => exact rel_next fun oq => .some ⟨rfl, rfl, rfl, g2, g3⟩
    | buf b => exact rel_next fun oq => .some ⟨rfl, rfl, rfl, g2, g3⟩
  · rintro ⟨a, b, c, d⟩ ⟨a', b', c', d'⟩ ⟨h1, h2, h3, -, -⟩
    dsimp only at h1 h2 h3
    subst h1 h2 h3
    exact .some rfl

/-- The searches give the same answers. -/
theorem nnSearch_same {rs : Bool} {r : F} {r' : G} (hr : rs = true → SameRadius ds ds' r r') (o : SearchObj) (lenQ : Nat) (queries : Option Arr) (k : Nat) (out : OutQ) (nn : Buf Nat) :
    nnSearch ds o lenQ queries k rs r out nn = nnSearch ds' o lenQ queries k rs r' out nn := by
  refine sim_eq (sim_bind (sim_allocs (Buf.raw k : Buf F) (Buf.raw k : Buf G) true) fun b c hbc => ?_)
  cases hbc with
  | none => exact sim_refl
  | some hb =>
    rename_i b c
    obtain ⟨h1, h2, h3⟩ := hb
    dsimp only
    rw [← h1, nnSearchK_rel h hr _ _ _ _ _ _ (dl := b.buf) (dl' := c.buf) (by rw [h2]; rfl) (by rw [h3]; rfl)]
    exact sim_refl

section
variable {T : F → G → Prop} (hT : ∀ p q, p < ds.n → q < ds.n → T (ds.dist p q) (ds'.dist p q))
include hT

theorem root_rel (i j : Nat) : Option.Rel (fun x y => T (FloatOps.sqrt x) (FloatOps.sqrt y)) (sqDist ds i j) (sqDist ds' i j) :=
  rel_mono (sqDist_rel h.exact h.exact' h.num i j) fun x y hx => by
    obtain ⟨h1, h2, rfl, rfl⟩ := hx
    exact hT i j h1 h2

theorem distRowsK_rel (lenQ : Nat) (queries : Option Arr) (lenC : Nat) (cols : Option Arr) {out : Buf F} {out' : Buf G} (ho : BufAlike T out out') :
    Option.Rel (BufAlike T) (distRowsK ds lenQ queries lenC cols out) (distRowsK ds' lenQ queries lenC cols out') := by
  unfold distRowsK
  refine rel_bind (R := fun a b => BufAlike T a.1 b.1 ∧ a.2 = b.2) (rel_forLt ⟨ho, rfl⟩ fun q a b hab => rel_forLt hab fun c ⟨a, w⟩ ⟨b, w'⟩ ⟨h1, h2⟩ => ?_) fun a b hab => .some hab.1
  dsimp only at h1 h2
  subst h2
  exact rel_next fun i => rel_next fun j => rel_bind (root_rel h hT i j) fun x y hx => rel_bind (h1.set hx _) fun o o' ho => .some ⟨ho, rfl⟩

theorem distRows_sim (lenQ : Nat) (queries : Option Arr) (lenC : Nat) (cols : Option Arr) {out : Buf F} {out' : Buf G} (ho : BufAlike T out out') :
    Sim (Option.Rel (BufAlike T)) ((builtinSpi (some ds)).distRows lenQ queries lenC cols out) ((builtinSpi (some ds')).distRows lenQ queries lenC cols out') := by
  show Sim _ (useK _ (distRowsK ds _ _ _ _ _) >>= _) (useK _ (distRowsK ds' _ _ _ _ _) >>= _)
  exact sim_bind (sim_useK _ (distRowsK_rel h hT _ _ _ _ ho)) fun a b hab => sim_pure (.some hab)

end

end Search

/-- Both fail with the same code, or both succeed with results that belong together. -/
inductive OutAlike {α β : Type} (R : α → β → Prop) : Except ErrorCode α → Except ErrorCode β → Prop
  | error (e) : OutAlike R (.error e) (.error e)
  | ok {a b} : R a b → OutAlike R (.ok a) (.ok b)

theorem sim_fail {α β : Type} {R : α → β → Prop} (ec : ErrorCode) (file : String) (line : Nat) (msg : Option String) : Sim (OutAlike R) (fail ec file line msg) (fail ec file line msg) :=
  fun _ => .some ⟨.error _, rfl⟩

end Scc
