/-
Calls that are made again in another state of the process do the same: nearest neighbour digraphs and assignment.
-/
import Verif.Proofs.RepeatSeeds

namespace Scc

variable {T : Twin} {α β γ δ : Type} {F : Type} {s t : Spi F}

/-! ### Nearest neighbour digraphs -/

/-- What the construction of a digraph hands back. -/
inductive NngAlike (T : Twin) : NngOut → NngOut → Prop
  | mk {d e : Digraph} {k : Nat} {q : Buf Nat} (h : DigraphAlike T d e) : NngAlike T ⟨d, k, q⟩ ⟨e, k, q⟩

theorem same_internalOut (rs : Bool) (q : OutQ) (len : Nat) : T.Same (ExcAlike (PairAlike Eq (PtrAlike T))) (internalOut rs q len) (internalOut rs q len) := by
  unfold internalOut
  refine same_ite Iff.rfl (fun _ => ?_) fun _ => same_pure (.ok ⟨rfl, .null⟩)
  cases q with
  | null =>
    refine same_bind same_alloc fun a b hab => ?_
    cases hab with
    | null => exact same_fail
    | ptr h => exact same_pure (.ok ⟨rfl, .ptr h⟩)
  | same => exact same_pure (.ok ⟨rfl, .null⟩)
  | buf b => exact same_pure (.ok ⟨rfl, .null⟩)

theorem same_shrinkNng (cfg : Cfg) {d e : Digraph} (len k m : Nat) (q : Buf Nat) (h : DigraphAlike T d e) :
    T.Same (ExcAlike (NngAlike T)) (shrinkNng cfg d len k m q) (shrinkNng cfg e len k m q) := by
  unfold shrinkNng
  refine same_ite Iff.rfl (fun _ => same_bind (same_changeArcStorage cfg _ h) fun a b hab => ?_) fun _ => same_pure (.ok (.mk h))
  obtain ⟨e, d⟩ := a
  obtain ⟨e', d'⟩ := b
  obtain ⟨he, hd⟩ := hab
  dsimp only at he hd ⊢
  subst he
  exact same_ite Iff.rfl (fun _ => same_bind (same_freeDigraph hd) fun _ _ _ => same_pure .error) fun _ => same_pure (.ok (.mk hd))

theorem same_makeNngFromSearch (cfg : Cfg) (hs : SpiAlike T s t) {o : s.NN} {o' : t.NN} (n len : Nat) {q q' : Option Arr} (k : Nat) (rs : Bool) (r : F) (oq : OutQ) (ho : hs.nn o o')
    (hq : ArrAlike T q q') : T.Same (ExcAlike (NngAlike T)) (makeNngFromSearch cfg s o n len q k rs r oq) (makeNngFromSearch cfg t o' n len q' k rs r oq) := by
  unfold makeNngFromSearch
  refine same_bind (same_internalOut rs oq len) fun a b hab => ?_
  cases hab with
  | error => exact same_pure .error
  | @ok a b h =>
    obtain ⟨dq, p⟩ := a
    obtain ⟨dq', p'⟩ := b
    obtain ⟨hdq, hp⟩ := h
    dsimp only at hdq hp ⊢
    subst hdq
    refine same_bind (same_initDigraph cfg _ _) fun a b hab => ?_
    cases hab with
    | error => exact same_bind (same_freePtr hp) fun _ _ _ => same_pure .error
    | ok hd =>
      dsimp only
      refine same_bind (same_touch (idsAlike_append hd.ids hp.ids)) fun _ _ _ => ?_
      rw [hd.hbuf]
      refine same_bind (hs.nnSearch o o' _ _ _ _ _ _ _ _ ho hq) fun a b hab => ?_
      subst hab
      cases a with
      | none => exact same_bind (same_freePtr hp) fun _ _ _ => same_bind (same_freeDigraph hd) fun _ _ _ => same_fail
      | some r =>
        dsimp only
        rw [hd.tbuf, hq.bufs]
        refine same_bind (same_useK (idsAlike_append (idsAlike_append hd.ids hp.ids) hq.ids) rfl) fun a b hab => ?_
        subst hab
        exact same_bind (same_freePtr hp) fun _ _ _ => same_shrinkNng cfg _ _ _ _ (hd.set _ _)

theorem same_makeNng (cfg : Cfg) (hs : SpiAlike T s t) (n lenS : Nat) {p p' : Option Arr} (len : Nat) {q q' : Option Arr} (k : Nat) (rs : Bool) (r : F) (oq : OutQ) (hp : ArrAlike T p p')
    (hq : ArrAlike T q q') : T.Same (ExcAlike (NngAlike T)) (makeNng cfg s n lenS p len q k rs r oq) (makeNng cfg t n lenS p' len q' k rs r oq) := by
  unfold makeNng
  refine same_bind (hs.nnInit _ _ _ hp) fun a b ho => ?_
  cases ho with
  | none => exact same_fail
  | some ho =>
    refine same_bind (same_makeNngFromSearch cfg hs _ _ _ _ _ _ ho hq) fun a b hab => ?_
    cases hab with
    | error => exact same_bind (hs.nnClose _ _ ho) fun _ _ _ => same_pure .error
    | ok h =>
      refine same_bind (hs.nnClose _ _ ho) fun a b hab => ?_
      subst hab
      refine same_ite Iff.rfl (fun _ => same_pure (.ok h)) fun _ => ?_
      cases h with | mk h => exact same_bind (same_freeDigraph h) fun _ _ _ => same_fail

theorem selfMatch_congr (len : Nat) {p p' : Option Arr} (h t : Buf Nat) (hp : ArrAlike T p p') : selfMatch len p h t = selfMatch len p' h t := by unfold selfMatch; rw [hp.get]

theorem same_nngSizeArcs (cfg : Cfg) (hs : SpiAlike T s t) (n S len : Nat) {p p' : Option Arr} (rs : Bool) (r : F) (hp : ArrAlike T p p') :
    T.Same (ExcAlike (DigraphAlike T)) (nngSizeArcs cfg s n S len p rs r) (nngSizeArcs cfg t n S len p' rs r) := by
  unfold nngSizeArcs
  rw [hp.isNone]
  refine same_bind (same_makeNng cfg hs _ _ _ _ _ _ _ .null hp) fun a b hab => ?_
  cases hab with
  | error => exact same_pure .error
  | ok h =>
    cases h with
    | mk hd =>
      dsimp only
      refine same_bind (same_isEmpty hd) fun a b hab => ?_
      subst hab
      refine same_ite Iff.rfl (fun _ => same_bind (same_freeDigraph hd) fun _ _ _ => same_fail) fun _ => ?_
      refine same_bind (same_useK hd.ids (by rw [hd.hbuf, hd.tbuf])) fun a b hab => ?_
      subst hab
      refine same_bind (same_deleteLoops cfg (hd.setHead _)) fun a b hab => ?_
      obtain ⟨e, d⟩ := a
      obtain ⟨e', d'⟩ := b
      obtain ⟨he, hd⟩ := hab
      dsimp only at he hd ⊢
      subst he
      exact same_ite Iff.rfl (fun _ => same_bind (same_freeDigraph hd) fun _ _ _ => same_pure .error) fun _ => same_pure (.ok hd)

theorem same_sortResult (cfg : Cfg) {a b : Except ErrorCode Digraph} (h : ExcAlike (DigraphAlike T) a b) : T.Same (ExcAlike (DigraphAlike T)) (sortResult cfg a) (sortResult cfg b) := by
  cases h with
  | error => exact same_pure .error
  | ok hd =>
    unfold sortResult sortNng
    refine same_bind (Q := DigraphAlike T) (R := ExcAlike (DigraphAlike T)) (same_ite Iff.rfl (fun _ => ?_) fun _ => same_pure hd) fun _ _ hd => same_pure (.ok hd)
    refine same_bind (same_useK hd.ids (by rw [hd.hbuf, hd.tbuf, hd.n])) fun a b hab => ?_
    subst hab
    exact same_pure (hd.setHead _)

theorem same_nngWithSize (cfg : Cfg) (hs : SpiAlike T s t) (n S len : Nat) {p p' : Option Arr} (rs : Bool) (r : F) (hp : ArrAlike T p p') :
    T.Same (ExcAlike (DigraphAlike T)) (nngWithSize cfg s n S len p rs r) (nngWithSize cfg t n S len p' rs r) :=
  same_bind (same_nngSizeArcs cfg hs n S len rs r hp) fun _ _ h => same_sortResult cfg h

/-! ### Type constraints -/

/-- Points grouped by type. -/
inductive TypeCountAlike (T : Twin) : TypeCount → TypeCount → Prop
  | mk {n : Nat} {a a' b b' c c' : Nat} {x y z : Buf Nat} (ha : T.Names a a') (hb : T.Names b b') (hc : T.Names c c') : TypeCountAlike T ⟨n, ⟨a, x⟩, ⟨b, y⟩, ⟨c, z⟩⟩ ⟨n, ⟨a', x⟩, ⟨b', y⟩, ⟨c', z⟩⟩

theorem same_free3 {a a' b b' c c' : Nat} (ha : T.Names a a') (hb : T.Names b b') (hc : T.Names c c') {R : α → β → Prop} {x : M α} {y : M β} (h : T.Same R x y) :
    T.Same R (do freeId a; freeId b; freeId c; x) (do freeId a'; freeId b'; freeId c'; y) :=
  same_bind (same_freeId ha) fun _ _ _ => same_bind (same_freeId hb) fun _ _ _ => same_bind (same_freeId hc) fun _ _ _ => h

theorem same_typeCount (n S m : Nat) (tcs labels : Buf Nat) : T.Same (ExcAlike (TypeCountAlike T)) (typeCount n S m tcs labels) (typeCount n S m tcs labels) := by
  unfold typeCount
  refine same_bind same_alloc fun a b h1 => same_bind same_alloc fun a b h2 => same_bind same_alloc fun a b h3 => ?_
  have hx : ∀ a b c d e f, PtrAlike T a b → PtrAlike T c d → PtrAlike T e f → T.Same (ExcAlike (TypeCountAlike T))
      (do freePtr (α := Nat) a; freePtr (α := Nat) c; freePtr (α := Nat) e; fail .noMemory "src/nng_core.c" 874)
      (do freePtr (α := Nat) b; freePtr (α := Nat) d; freePtr (α := Nat) f; fail .noMemory "src/nng_core.c" 874) := fun a b c d e f h1 h2 h3 =>
    same_bind (same_freePtr h1) fun _ _ _ => same_bind (same_freePtr h2) fun _ _ _ => same_bind (same_freePtr h3) fun _ _ _ => same_fail
  cases h1 with
  | null => cases h2 with
    | null => cases h3 with
      | null => exact hx _ _ _ _ _ _ .null .null .null
      | ptr h3 => exact hx _ _ _ _ _ _ .null .null (.ptr h3)
    | ptr h2 => cases h3 with
      | null => exact hx _ _ _ _ _ _ .null (.ptr h2) .null
      | ptr h3 => exact hx _ _ _ _ _ _ .null (.ptr h2) (.ptr h3)
  | ptr h1 => cases h2 with
    | null => cases h3 with
      | null => exact hx _ _ _ _ _ _ (.ptr h1) .null .null
      | ptr h3 => exact hx _ _ _ _ _ _ (.ptr h1) .null (.ptr h3)
    | ptr h2 => cases h3 with
      | null => exact hx _ _ _ _ _ _ (.ptr h1) (.ptr h2) .null
      | ptr h3 =>
        refine same_bind (same_useK (.cons h1 .nil) rfl) fun a b hab => ?_
        subst hab
        refine same_bind (same_useK (.cons h1 .nil) rfl) fun a b hab => ?_
        subst hab
        cases a with
        | none => exact same_free3 h1 h2 h3 same_fail
        | some sum =>
          refine same_ite Iff.rfl (fun _ => same_free3 h1 h2 h3 same_fail) fun _ => ?_
          refine same_bind (same_useK (.cons h1 (.cons h3 .nil)) rfl) fun a b hab => ?_
          subst hab
          refine same_bind (same_useK (.cons h2 (.cons h3 .nil)) rfl) fun a b hab => ?_
          subst hab
          exact same_pure (.ok (.mk h1 h2 h3))

/-- States of the loop over types. -/
inductive TypeStAlike (T : Twin) : TypeSt → TypeSt → Prop
  | mk {l l' : List Digraph} {n : Nat} {p p' : Option (Blk Nat)} (hl : List.Forall₂ (DigraphAlike T) l l') (hp : PtrAlike T p p') : TypeStAlike T ⟨l, n, p⟩ ⟨l', n, p'⟩

theorem queriesOf_alike {p p' : Option (Blk Nat)} {q q' : Option Arr} (hp : PtrAlike T p p') (hq : ArrAlike T q q') : ArrAlike T (queriesOf p q) (queriesOf p' q') := by
  cases hp with
  | null => exact hq
  | ptr h => exact .arr (.cons h .nil)

theorem seedOut_alike {p p' : Option (Blk Nat)} (hp : PtrAlike T p p') : seedOut p = seedOut p' := by unfold seedOut; rw [hp.isSome]

theorem fillSeedable_congr (n m : Nat) {q q' : Option Arr} (b : Buf Nat) (hq : ArrAlike T q q') : fillSeedable n m q b = fillSeedable n m q' b := by cases hq <;> rfl

theorem same_initSeedable (n m : Nat) {q q' : Option Arr} (rs : Bool) (hq : ArrAlike T q q') : T.Same (ExcAlike (PtrAlike T)) (initSeedable n m q rs) (initSeedable n m q' rs) := by
  unfold initSeedable
  refine same_ite Iff.rfl (fun _ => same_bind same_alloc fun a b hab => ?_) fun _ => same_pure (.ok .null)
  cases hab with
  | null => exact same_fail
  | ptr h =>
    refine same_bind (same_useK (.cons h hq.ids) (fillSeedable_congr _ _ _ hq)) fun a b hab => ?_
    subst hab
    exact same_pure (.ok (.ptr h))

theorem same_typeNngStep (cfg : Cfg) (hs : SpiAlike T s t) (n : Nat) (tcs : Buf Nat) {tc tc' : TypeCount} {q q' : Option Arr} (rs : Bool) (r : F) (htc : TypeCountAlike T tc tc') (hq : ArrAlike T q q')
    (a b : TypeSt) (i : Nat) (h : TypeStAlike T a b) :
    T.Same (CtlAlike (TypeStAlike T) (PairAlike Eq (TypeStAlike T))) (typeNngStep cfg s n tcs tc q rs r a i) (typeNngStep cfg t n tcs tc' q' rs r b i) := by
  obtain ⟨ha, hb, hc⟩ := htc
  obtain ⟨hl, hp⟩ := h
  unfold typeNngStep
  refine same_bind (same_useK .nil rfl) fun a b hab => ?_
  subst hab
  refine same_ite Iff.rfl (fun _ => ?_) fun _ => same_pure (.next (.mk hl hp))
  refine same_bind (same_useK (.cons ha (.cons hc .nil)) rfl) fun a b hab => ?_
  subst hab
  dsimp only
  rw [seedOut_alike hp]
  refine same_bind (same_makeNng cfg hs _ _ _ _ _ _ _ (.arr (.cons hb .nil)) (queriesOf_alike hp hq)) fun a b hab => ?_
  cases hab with
  | error => exact same_pure (.stop ⟨rfl, .mk hl hp⟩)
  | ok h =>
    obtain ⟨hd⟩ := h
    dsimp only
    refine same_bind (same_isEmpty hd) fun a b hab => ?_
    subst hab
    refine same_ite Iff.rfl (fun _ => same_bind same_mkErr fun _ _ he => same_pure (.stop ⟨he, .mk (List.rel_append hl (.cons hd .nil)) (hp.set _)⟩)) fun _ => ?_
    rw [hd.hbuf, hd.tbuf]
    refine same_bind (same_useK (.cons hb hd.ids) (selfMatch_congr (T := T) _ _ _ (.arr (.cons hb .nil)))) fun a b hab => ?_
    subst hab
    exact same_pure (.next (.mk (List.rel_append hl (.cons (hd.setHead _) .nil)) (hp.set _)))

theorem same_freeDigraphs {l l' : List Digraph} (h : List.Forall₂ (DigraphAlike T) l l') : T.Same Eq (freeDigraphs l) (freeDigraphs l') := by
  unfold freeDigraphs
  induction h with
  | nil => exact same_pure rfl
  | cons h _ ih =>
    rw [List.foldlM_cons, List.foldlM_cons]
    exact same_bind (Q := Eq) (same_bind (same_freeDigraph h) fun _ _ _ => same_pure rfl) fun _ _ _ => ih

theorem same_unionQueries (cfg : Cfg) {l l' : List Digraph} (m : Nat) {q q' : Option Arr} (keep : Bool) (hl : List.Forall₂ (DigraphAlike T) l l') (hq : ArrAlike T q q') :
    T.Same (ExcAlike (DigraphAlike T)) (unionQueries cfg l m q keep) (unionQueries cfg l' m q' keep) := by
  cases hq with
  | null => exact same_unionAndDelete cfg none keep hl
  | arr h =>
    refine same_bind (same_useK h rfl) fun a b hab => ?_
    subst hab
    exact same_unionAndDelete cfg _ keep hl

theorem same_extraArcs (cfg : Cfg) {m m' d d' : Digraph} (k : Nat) (hm : DigraphAlike T m m') (hd : DigraphAlike T d d') :
    T.Same (PairAlike Eq (DigraphAlike T)) (extraArcs cfg m d k) (extraArcs cfg m' d' k) := by
  unfold extraArcs
  refine same_bind (same_isEmpty hm) fun a b hab => ?_
  subst hab
  exact same_ite Iff.rfl (fun _ => same_bind same_mkErr fun _ _ he => same_pure ⟨he, hm⟩) fun _ => same_digraphDifference cfg k hm hd

theorem same_addGeneral (cfg : Cfg) (hs : SpiAlike T s t) (n S sum : Nat) {q q' : Option Arr} (rs : Bool) (r : F) (m : Nat) {p p' : Option (Blk Nat)} {d d' : Digraph} (hq : ArrAlike T q q')
    (hp : PtrAlike T p p') (hd : DigraphAlike T d d') : T.Same (ExcAlike (DigraphAlike T)) (addGeneral cfg s n S sum q rs r m p d) (addGeneral cfg t n S sum q' rs r m p' d') := by
  unfold addGeneral
  refine same_ite Iff.rfl (fun _ => ?_) fun _ => same_bind (same_freePtr hp) fun _ _ _ => same_pure (.ok hd)
  rw [seedOut_alike hp]
  refine same_bind (same_makeNng cfg hs _ _ _ _ _ _ _ .null (queriesOf_alike hp hq)) fun a b hab => ?_
  cases hab with
  | error => exact same_bind (same_freePtr hp) fun _ _ _ => same_bind (same_freeDigraph hd) fun _ _ _ => same_pure .error
  | ok h =>
    obtain ⟨hg⟩ := h
    refine same_bind (same_extraArcs cfg _ hg hd) fun a b hab => ?_
    obtain ⟨e, g⟩ := a
    obtain ⟨e', g'⟩ := b
    obtain ⟨he, hg⟩ := hab
    dsimp only at he hg ⊢
    subst he
    refine same_ite Iff.rfl (fun _ => same_bind (same_freeDigraph hd) fun _ _ _ => same_bind (same_freeDigraph hg) fun _ _ _ => same_bind (same_freePtr hp) fun _ _ _ => same_pure .error) fun _ => ?_
    exact same_bind (same_unionQueries cfg _ _ (.cons hd (.cons hg .nil)) (queriesOf_alike (hp.set _) hq)) fun _ _ hu =>
      same_bind (same_freeDigraph hd) fun _ _ _ => same_bind (same_freeDigraph hg) fun _ _ _ => same_bind (same_freePtr hp) fun _ _ _ => same_pure hu

theorem same_combineTypes (cfg : Cfg) (hs : SpiAlike T s t) (n S sum : Nat) {i i' : Nat} {q q' : Option Arr} (rs : Bool) (r : F) {x y : Ctl TypeSt (ErrorCode × TypeSt)} (hi : T.Names i i')
    (hq : ArrAlike T q q') (hx : CtlAlike (TypeStAlike T) (PairAlike Eq (TypeStAlike T)) x y) :
    T.Same (ExcAlike (DigraphAlike T)) (combineTypes cfg s n S sum i q rs r x) (combineTypes cfg t n S sum i' q' rs r y) := by
  cases hx with
  | @stop a b h =>
    obtain ⟨e, x⟩ := a
    obtain ⟨e', y⟩ := b
    obtain ⟨he, h⟩ := h
    dsimp only at he h
    subst he
    obtain ⟨hl, hp⟩ := h
    exact same_bind (same_freeDigraphs hl) fun _ _ _ => same_bind (same_freeId hi) fun _ _ _ => same_bind (same_freePtr hp) fun _ _ _ => same_pure .error
  | next h =>
    obtain ⟨hl, hp⟩ := h
    refine same_bind (same_touch (.cons hi .nil)) fun _ _ _ => same_bind (same_unionQueries cfg _ _ hl (queriesOf_alike hp hq)) fun a b hu => ?_
    refine same_bind (same_freeDigraphs hl) fun _ _ _ => same_bind (same_freeId hi) fun _ _ _ => ?_
    cases hu with
    | error => exact same_bind (same_freePtr hp) fun _ _ _ => same_pure .error
    | ok hd => exact same_addGeneral cfg hs _ _ _ _ _ _ hq hp hd

theorem same_nngTypeArcs (cfg : Cfg) (hs : SpiAlike T s t) (n S m : Nat) (tcs labels : Buf Nat) (len : Nat) {q q' : Option Arr} (rs : Bool) (r : F) (hq : ArrAlike T q q') :
    T.Same (ExcAlike (DigraphAlike T)) (nngTypeArcs cfg s n S m tcs labels len q rs r) (nngTypeArcs cfg t n S m tcs labels len q' rs r) := by
  unfold nngTypeArcs
  rw [hq.isNone]
  refine same_bind (same_initSeedable _ _ rs hq) fun a b hab => ?_
  cases hab with
  | error => exact same_pure .error
  | ok hp =>
    refine same_bind same_alloc fun a b hab => ?_
    cases hab with
    | null => exact same_bind (same_freePtr hp) fun _ _ _ => same_fail
    | ptr hi =>
      refine same_bind (same_typeCount _ _ _ _ _) fun a b hab => ?_
      cases hab with
      | error => exact same_bind (same_freePtr hp) fun _ _ _ => same_bind (same_freeId hi) fun _ _ _ => same_pure .error
      | ok htc =>
        refine same_bind (same_foldBM (same_typeNngStep cfg hs _ _ _ _ htc hq) _ (.mk .nil hp)) fun a b hab => ?_
        obtain ⟨h1, h2, h3⟩ := htc
        exact same_free3 h1 h2 h3 (same_combineTypes cfg hs _ _ _ _ _ hi hq hab)

theorem same_nngWithTypes (cfg : Cfg) (hs : SpiAlike T s t) (n S m : Nat) (tcs labels : Buf Nat) (len : Nat) {q q' : Option Arr} (rs : Bool) (r : F) (hq : ArrAlike T q q') :
    T.Same (ExcAlike (DigraphAlike T)) (nngWithTypes cfg s n S m tcs labels len q rs r) (nngWithTypes cfg t n S m tcs labels len q' rs r) :=
  same_bind (same_nngTypeArcs cfg hs n S m tcs labels len rs r hq) fun _ _ h => same_sortResult cfg h

/-! ### Estimating the radius -/

variable [FloatOps F]

theorem same_estimateStep (hs : SpiAlike T s t) {sr sr' : SeedResult} {d d' : Digraph} {i i' : Nat} (hr : SeedAlike T sr sr') (hd : DigraphAlike T d d') (hi : T.Names i i') (a b : Nat × F × Buf F) (x : Nat)
    (hab : a = b) : T.Same (CtlAlike Eq Eq) (estimateStep s sr d i a x) (estimateStep t sr' d' i' b x) := by
  subst hab
  unfold estimateStep
  rw [hr.seeds.buf, hd.tbuf, hd.hbuf]
  refine same_bind (same_useK (idsAlike_append hr.seeds.ids hd.ids) rfl) fun u v huv => ?_
  subst huv
  refine same_bind (same_touch (.cons hi .nil)) fun _ _ _ => same_bind (hs.distRows _ _ _ _ _ _ _ (.arr .nil) (.arr hd.head.ids)) fun u v huv => ?_
  subst huv
  cases u with
  | none => exact same_bind (same_freeId hi) fun _ _ _ => same_bind same_mkErr fun _ _ he => same_pure (.stop he)
  | some dists =>
    refine same_bind (same_useK (.cons hi hd.ids) rfl) fun u v huv => ?_
    subst huv
    exact same_pure (.next rfl)

theorem same_estimateAvg (hs : SpiAlike T s t) {sr sr' : SeedResult} {d d' : Digraph} (S : Nat) (hr : SeedAlike T sr sr') (hd : DigraphAlike T d d') :
    T.Same (ExcAlike Eq) (estimateAvg s sr d S) (estimateAvg t sr' d' S) := by
  unfold estimateAvg
  rw [hr.count]
  refine same_bind same_alloc fun a b hab => ?_
  cases hab with
  | null => exact same_fail
  | ptr hi =>
    refine same_bind (same_foldBM (same_estimateStep hs hr hd hi) _ rfl) fun a b hab => ?_
    cases hab with
    | next h => exact same_bind (same_freeId hi) fun _ _ _ => same_pure (.ok (by rw [h]))
    | stop h => exact same_pure (h ▸ .error)

omit [FloatOps F]

/-! ### Assigning labels -/

theorem same_assignByNng (cfg : Cfg) (n : Nat) {d d' : Digraph} {l l' : Option (Blk Int)} (hd : DigraphAlike T d d') (hl : PtrAlike T l l') :
    T.Same Eq (assignByNng cfg n d l) (assignByNng cfg n d' l') := by
  unfold assignByNng
  rw [hl.buf, hd.hbuf, hd.tbuf]
  refine same_bind same_alloc fun a b hab => ?_
  cases hab with
  | null => exact same_bind same_mkErr fun _ _ _ => same_pure rfl
  | ptr hi =>
    refine same_bind (same_useK (.cons hi hl.ids) rfl) fun a b hab => ?_
    subst hab
    refine same_bind (same_useK (idsAlike_append (.cons hi hd.ids) hl.ids) rfl) fun a b hab => ?_
    exact same_bind (same_freeId hi) fun _ _ _ => same_pure hab

theorem same_assignBySearch (hs : SpiAlike T s t) {o : s.NN} {o' : t.NN} {l l' : Option (Blk Int)} (num : Nat) {ta ta' : Blk Nat} (rs : Bool) (r : F) (ho : hs.nn o o') (hl : PtrAlike T l l')
    (ht : BlkAlike T ta ta') : T.Same Eq (assignBySearch s o l num ta rs r) (assignBySearch t o' l' num ta' rs r) := by
  obtain ⟨ht⟩ := ht
  unfold assignBySearch
  rw [hl.buf]
  refine same_bind same_alloc fun p p' hp => same_bind (same_touch (.cons ht hp.ids)) fun _ _ _ => ?_
  rw [hp.buf]
  refine same_bind (hs.nnSearch _ _ _ _ _ _ _ _ _ _ ho (.arr (.cons ht .nil))) fun a b hab => ?_
  subst hab
  cases a with
  | none => exact same_bind (same_freePtr hp) fun _ _ _ => same_bind same_mkErr fun _ _ he => same_pure (by rw [he])
  | some r =>
    refine same_bind (same_useK (idsAlike_append (.cons ht hp.ids) hl.ids) rfl) fun a b hab => ?_
    subst hab
    exact same_bind (same_freePtr hp) fun _ _ _ => same_pure rfl

theorem same_initAssigned (cfg : Cfg) (n num : Nat) (need : Bool) {l l' : Option (Blk Int)} (hl : PtrAlike T l l') :
    T.Same (ExcAlike (PtrAlike T)) (initAssigned cfg n num need l) (initAssigned cfg n num need l') := by
  unfold initAssigned
  refine same_ite Iff.rfl (fun _ => same_bind same_alloc fun a b hab => ?_) fun _ => same_pure (.ok .null)
  cases hab with
  | null => exact same_fail
  | ptr hi =>
    refine same_bind (same_useK (.cons hi hl.ids) (by rw [hl.buf])) fun a b hab => ?_
    subst hab
    exact same_pure (.ok (.ptr hi))

theorem same_initNN (hs : SpiAlike T s t) (need : Bool) (len : Nat) {p p' : Option (Blk Nat)} (line : Nat) (hp : PtrAlike T p p') :
    T.Same (ExcAlike (OptAlike hs.nn)) (initNN s need len p line) (initNN t need len p' line) := by
  unfold initNN
  refine same_ite Iff.rfl (fun _ => same_bind (hs.nnInit _ _ _ hp.arr) fun a b hab => ?_) fun _ => same_pure (.ok .none)
  cases hab with
  | none => exact same_fail
  | some ho => exact same_pure (.ok (.some ho))

theorem same_closeNN (hs : SpiAlike T s t) {o : Option s.NN} {o' : Option t.NN} (h : OptAlike hs.nn o o') : T.Same Eq (closeNN s o) (closeNN t o') := by
  cases h with
  | none => exact same_pure rfl
  | some h => exact same_bind (hs.nnClose _ _ h) fun _ _ _ => same_pure rfl

theorem same_useObj (hs : SpiAlike T s t) {o : Option s.NN} {o' : Option t.NN} (h : OptAlike hs.nn o o') : T.Same hs.nn (useK [] o) (useK [] o') := by
  cases h with
  | none => intro w v a w' hw hr; cases hr
  | some h =>
    intro w v a w' hw hr
    cases hr
    exact ⟨_, v, rfl, hw, h⟩

theorem same_assignUnassigned (hs : SpiAlike T s t) {oa os : Option s.NN} {oa' os' : Option t.NN} (um : UnassignedMethod) {l l' : Option (Blk Int)} (num : Nat) {ta ta' : Blk Nat} (rs : Bool) (r : F)
    (ha : OptAlike hs.nn oa oa') (ho : OptAlike hs.nn os os') (hl : PtrAlike T l l') (ht : BlkAlike T ta ta') :
    T.Same Eq (assignUnassigned s oa os um l num ta rs r) (assignUnassigned t oa' os' um l' num ta' rs r) := by
  have hx : T.Same Eq (pure (ErrorCode.ok, ptrBuf l, ta.buf) : M (ErrorCode × Buf Int × Buf Nat)) (pure (ErrorCode.ok, ptrBuf l', ta'.buf)) := same_pure (by cases ht; rw [hl.buf])
  unfold assignUnassigned
  refine same_ite Iff.rfl (fun _ => ?_) fun _ => hx
  refine same_ite Iff.rfl (fun _ => same_bind (same_useObj hs ha) fun _ _ h => same_assignBySearch hs _ _ _ h hl ht) fun _ => ?_
  exact same_ite Iff.rfl (fun _ => same_bind (same_useObj hs ho) fun _ _ h => same_assignBySearch hs _ _ _ h hl ht) fun _ => hx

theorem same_secondRound (cfg : Cfg) (hs : SpiAlike T s t) {oa os : Option s.NN} {oa' os' : Option t.NN} (um : UnassignedMethod) (n : Nat) {l l' : Option (Blk Int)} {ta ta' : Blk Nat} (rs : Bool) (r : F)
    (ha : OptAlike hs.nn oa oa') (ho : OptAlike hs.nn os os') (hl : PtrAlike T l l') (ht : BlkAlike T ta ta') :
    T.Same Eq (secondRound cfg s oa os um n l ta rs r) (secondRound cfg t oa' os' um n l' ta' rs r) := by
  obtain ⟨ht⟩ := ht
  unfold secondRound
  refine same_ite Iff.rfl (fun _ => ?_) fun _ => same_pure hl.buf
  refine same_bind (same_useK (.cons ht hl.ids) (by rw [hl.buf])) fun a b hab => ?_
  subst hab
  refine same_bind (same_assignUnassigned hs um _ _ _ ha ho hl (.mk ht)) fun a b hab => ?_
  subst hab
  exact same_pure rfl

theorem same_closeAll (hs : SpiAlike T s t) {p p' : Option (Blk Nat)} {i i' : Nat} {oa os : Option s.NN} {oa' os' : Option t.NN} (hp : PtrAlike T p p') (hi : T.Names i i')
    (ha : OptAlike hs.nn oa oa') (ho : OptAlike hs.nn os os') : T.Same Eq (closeAll s p i oa os) (closeAll t p' i' oa' os') :=
  same_bind (same_freePtr hp) fun _ _ _ => same_bind (same_freeId hi) fun _ _ _ => same_bind (same_closeNN hs ha) fun _ _ _ => same_closeNN hs ho

theorem same_searchRounds (cfg : Cfg) (hs : SpiAlike T s t) (n : Nat) {l l' : Option (Blk Int)} {p p' : Option (Blk Nat)} {oa os : Option s.NN} {oa' os' : Option t.NN} {ta ta' : Blk Nat}
    (um : UnassignedMethod) (rs : Bool) (r : F) (len : Nat) (primary : Option (Buf Nat)) (um2 : UnassignedMethod) (rs2 : Bool) (r2 : F) (hl : PtrAlike T l l') (hp : PtrAlike T p p')
    (ha : OptAlike hs.nn oa oa') (ho : OptAlike hs.nn os os') (ht : BlkAlike T ta ta') :
    T.Same (PairAlike Eq (PtrAlike T)) (searchRounds cfg s n l p oa os ta um rs r len primary um2 rs2 r2) (searchRounds cfg t n l' p' oa' os' ta' um rs r len primary um2 rs2 r2) := by
  obtain ⟨ht⟩ := ht
  unfold searchRounds
  refine same_bind (same_useK (.cons ht hl.ids) (by rw [hl.buf])) fun a b hab => ?_
  subst hab
  refine same_bind (same_assignUnassigned hs um _ _ _ ha ho hl (.mk ht)) fun a b hab => ?_
  subst hab
  refine same_ite Iff.rfl (fun _ => same_bind (same_closeAll hs hp ht ha ho) fun _ _ _ => same_pure ⟨rfl, hl.set _⟩) fun _ => ?_
  refine same_bind (same_secondRound cfg hs um2 _ _ _ ha ho (hl.set _) (.mk ht)) fun a b hab => ?_
  subst hab
  exact same_bind (same_closeAll hs hp ht ha ho) fun _ _ _ => same_pure ⟨rfl, hl.set _⟩

theorem same_assignRemaining (cfg : Cfg) (hs : SpiAlike T s t) (n total num : Nat) {l l' : Option (Blk Int)} {p p' : Option (Blk Nat)} {sr sr' : SeedResult} (um : UnassignedMethod) (rs : Bool) (r : F)
    (len : Nat) (primary : Option (Buf Nat)) (um2 : UnassignedMethod) (rs2 : Bool) (r2 : F) (hl : PtrAlike T l l') (hp : PtrAlike T p p') (hr : SeedAlike T sr sr') :
    T.Same (PairAlike Eq (PtrAlike T)) (assignRemaining cfg s n total num l p sr um rs r len primary um2 rs2 r2) (assignRemaining cfg t n total num l' p' sr' um rs r len primary um2 rs2 r2) := by
  unfold assignRemaining
  rw [hr.count]
  refine same_bind (same_initNN hs _ _ _ hp) fun a b hab => ?_
  cases hab with
  | error => exact same_bind (same_freePtr hp) fun _ _ _ => same_pure ⟨rfl, hl⟩
  | ok ha =>
    refine same_bind (same_initNN hs _ _ _ hr.seeds) fun a b hab => ?_
    cases hab with
    | error => exact same_bind (same_freePtr hp) fun _ _ _ => same_bind (same_closeNN hs ha) fun _ _ _ => same_pure ⟨rfl, hl⟩
    | ok ho =>
      refine same_bind same_alloc fun a b hab => ?_
      cases hab with
      | null => exact same_bind (same_freePtr hp) fun _ _ _ => same_bind (same_closeNN hs ha) fun _ _ _ => same_bind (same_closeNN hs ho) fun _ _ _ => same_bind same_mkErr fun _ _ he => same_pure ⟨he, hl⟩
      | ptr ht => exact same_searchRounds cfg hs _ _ _ _ _ _ _ _ _ hl hp ha ho (.mk ht)

theorem ClusteringAlike.label {c d : Clustering} (h : ClusteringAlike T c d) : PtrAlike T c.label d.label := by cases h with | mk h => exact h
theorem ClusteringAlike.n {c d : Clustering} (h : ClusteringAlike T c d) : c.n = d.n := by cases h with | mk h => rfl

theorem same_makeClusters (cfg : Cfg) (hs : SpiAlike T s t) {c c' : Clustering} {sr sr' : SeedResult} {d d' : Digraph} (ord : Bool) (um : UnassignedMethod) (rs : Bool) (r : F)
    (len : Nat) (primary : Option (Buf Nat)) (um2 : UnassignedMethod) (rs2 : Bool) (r2 : F) (hc : ClusteringAlike T c c') (hr : SeedAlike T sr sr') (hd : DigraphAlike T d d') :
    T.Same (PairAlike Eq (PairAlike (ClusteringAlike T) (DigraphAlike T))) (makeClusters cfg s c sr d ord um rs r len primary um2 rs2 r2) (makeClusters cfg t c' sr' d' ord um rs r len primary um2 rs2 r2) := by
  obtain ⟨hl⟩ := hc
  unfold makeClusters
  dsimp only
  rw [hr.count, hr.seeds.buf, hd.hbuf, hd.tbuf, hl.buf]
  refine same_bind (same_useK (idsAlike_append (idsAlike_append hr.seeds.ids hd.ids) hl.ids) rfl) fun a b hab => ?_
  subst hab
  obtain ⟨lb, num⟩ := a
  dsimp only
  have hl := hl.set lb
  refine same_ite Iff.rfl (fun _ => same_pure ⟨rfl, .mk hl, hd⟩) fun _ => ?_
  refine same_bind (same_initAssigned cfg _ _ _ hl) fun a b hab => ?_
  cases hab with
  | error => exact same_pure ⟨rfl, .mk hl, hd⟩
  | ok hp =>
    refine same_ite Iff.rfl (fun _ => ?_) fun _ => ?_
    · refine same_bind (same_assignByNng cfg _ hd hl) fun a b hab => ?_
      subst hab
      refine same_ite Iff.rfl (fun _ => same_bind (same_freePtr hp) fun _ _ _ => same_pure ⟨rfl, .mk (hl.set _), hd⟩) fun _ => ?_
      exact same_bind (same_freeDigraph hd) fun _ _ hd => same_bind (same_assignRemaining cfg hs _ _ _ _ _ _ _ _ _ _ _ (hl.set _) hp hr) fun _ _ h => same_pure ⟨h.1, .mk h.2, hd⟩
    · exact same_bind (same_freeDigraph hd) fun _ _ hd => same_bind (same_assignRemaining cfg hs _ _ _ _ _ _ _ _ _ _ _ hl hp hr) fun _ _ h => same_pure ⟨h.1, .mk h.2, hd⟩

end Scc
