/-
The same call in two processes, one of which runs out of memory: nearest neighbour digraphs and assignment.
-/
import Verif.Proofs.PressSeeds
import Verif.Proofs.RepeatCore
import Verif.Proofs.Estimate

namespace Scc

variable {α β γ δ : Type} {F : Type} {spi : Spi F}

/-! ### Nearest neighbour digraphs -/

/-- Index arrays with the same contents. -/
abbrev ArrEq : Option Arr → Option Arr → Prop := ArrAlike anyT

theorem ArrAlike.same {p q : Option Arr} (h : ArrEq p q) (len : Nat) : SameEntries len p q := ⟨h.isNone, fun i _ => by rw [h.get]⟩

/-- What the construction of a digraph hands back. -/
abbrev NngEq : NngOut → NngOut → Prop := NngAlike anyT

theorem pair_internalOut (rs : Bool) (q : OutQ) (len : Nat) : Pair BadExc (ExcAlike (PairAlike Eq PtrEq)) (internalOut rs q len) (internalOut rs q len) := by
  unfold internalOut
  refine pair_ite Iff.rfl (fun _ => ?_) fun _ => pair_pure (.ok ⟨rfl, .null⟩)
  cases q with
  | null =>
    refine pair_new pair_get (ends_badFail badMemory) fun a b hab => ?_
    cases hab
    exact pair_pure (.ok ⟨rfl, .ptr nm⟩)
  | same => exact pair_pure (.ok ⟨rfl, .null⟩)
  | buf b => exact pair_pure (.ok ⟨rfl, .null⟩)

theorem pair_shrinkNng (cfg : Cfg) {d e : Digraph} (len k m : Nat) (q : Buf Nat) (h : DgEq d e) : Pair BadExc (ExcAlike NngEq) (shrinkNng cfg d len k m q) (shrinkNng cfg e len k m q) := by
  unfold shrinkNng
  refine pair_ite Iff.rfl (fun _ => pair_code (pair_changeArcStorage cfg _ h) (fun e a he => ends_code he (ends_next fun _ => ends_badExc he)) fun e a b hd => ?_) fun _ => pair_pure (.ok (.mk h))
  exact pair_ite Iff.rfl (fun _ => pair_bind (pair_freeDigraph hd) fun _ _ _ => pair_pure .error) fun _ => pair_pure (.ok (.mk hd))

theorem pair_makeNngFromSearch (cfg : Cfg) (hs : spi.Firm) {o o' : spi.NN} (n len : Nat) {q q' : Option Arr} (k : Nat) (rs : Bool) (r : F) (oq : OutQ) (ho : hs.nn k o o')
    (hq : ArrEq q q') : Pair BadExc (ExcAlike NngEq) (makeNngFromSearch cfg spi o n len q k rs r oq) (makeNngFromSearch cfg spi o' n len q' k rs r oq) := by
  unfold makeNngFromSearch
  refine pair_exc (pair_internalOut rs oq len) (fun e he => ends_badExc he) (fun e => pair_pure .error) fun a b h => ?_
  obtain ⟨dq, p⟩ := a
  obtain ⟨dq', p'⟩ := b
  obtain ⟨hdq, hp⟩ := h
  dsimp only at hdq hp ⊢
  subst hdq
  refine pair_exc (pair_initDigraph cfg _ _) (fun e he => ends_next fun _ => ends_badExc he) (fun e => pair_bind (pair_freePtr hp) fun _ _ _ => pair_pure .error) fun d e hd => ?_
  dsimp only
  refine pair_bind pair_touch fun _ _ _ => ?_
  rw [hd.hbuf]
  refine pair_bind (hs.nnSearch o o' _ _ _ _ _ _ _ _ ho hq.bufs) fun a b hab => ?_
  rcases hab with rfl | rfl
  · exact pair_bad (ends_next fun _ => ends_next fun _ => ends_badFail badSearch)
  · cases a with
    | none => exact pair_bad (ends_next fun _ => ends_next fun _ => ends_badFail badSearch)
    | some r =>
      dsimp only
      rw [hd.tbuf, hq.bufs]
      refine pair_bind (pair_useK rfl) fun a b hab => ?_
      subst hab
      exact pair_bind (pair_freePtr hp) fun _ _ _ => pair_shrinkNng cfg _ _ _ _ (hd.set _ _)

theorem pair_makeNng (cfg : Cfg) (hs : spi.Firm) (n lenS : Nat) {p p' : Option Arr} (len : Nat) {q q' : Option Arr} (k : Nat) (rs : Bool) (r : F) (oq : OutQ) (hp : ArrEq p p')
    (hq : ArrEq q q') : Pair BadExc (ExcAlike NngEq) (makeNng cfg spi n lenS p len q k rs r oq) (makeNng cfg spi n lenS p' len q' k rs r oq) := by
  unfold makeNng
  refine pair_bind (hs.nnInit _ k _ _ (hp.same _)) fun a b ho => ?_
  rcases ho with rfl | ⟨x, y, rfl, rfl, ho⟩
  · exact pair_bad (ends_badFail badSearch)
  refine pair_exc (pair_makeNngFromSearch cfg hs _ _ _ _ _ _ ho hq) (fun e he => ends_next fun _ => ends_badExc he) (fun e => pair_bind (hs.nnClose _ _ _ ho) fun _ _ _ => pair_pure .error) fun a b h => ?_
  refine pair_bind (hs.nnClose _ _ _ ho) fun a b hab => ?_
  subst hab
  refine pair_ite Iff.rfl (fun _ => pair_pure (.ok h)) fun _ => ?_
  cases h with | mk h => exact pair_bind (pair_freeDigraph h) fun _ _ _ => pair_fail

theorem pair_nngSizeArcs (cfg : Cfg) (hs : spi.Firm) (n S len : Nat) {p p' : Option Arr} (rs : Bool) (r : F) (hp : ArrEq p p') :
    Pair BadExc (ExcAlike DgEq) (nngSizeArcs cfg spi n S len p rs r) (nngSizeArcs cfg spi n S len p' rs r) := by
  unfold nngSizeArcs
  rw [hp.isNone]
  refine pair_exc (pair_makeNng cfg hs _ _ _ _ _ _ _ .null hp) (fun e he => ends_badExc he) (fun e => pair_pure .error) fun a b h => ?_
  cases h with
  | mk hd =>
    dsimp only
    refine pair_bind (pair_isEmpty hd) fun a b hab => ?_
    subst hab
    refine pair_ite Iff.rfl (fun _ => pair_bind (pair_freeDigraph hd) fun _ _ _ => pair_fail) fun _ => ?_
    refine pair_bind (pair_useK (by rw [hd.hbuf, hd.tbuf])) fun a b hab => ?_
    subst hab
    refine pair_code (pair_deleteLoops cfg (hd.setHead _)) (fun e a he => ends_code he (ends_next fun _ => ends_badExc he)) fun e a b hd => ?_
    exact pair_ite Iff.rfl (fun _ => pair_bind (pair_freeDigraph hd) fun _ _ _ => pair_pure .error) fun _ => pair_pure (.ok hd)

theorem pair_sortResult (cfg : Cfg) {x y : M (Except ErrorCode Digraph)} (h : Pair BadExc (ExcAlike DgEq) x y) :
    Pair BadExc (ExcAlike DgEq) (do let r ← x; sortResult cfg r) (do let r ← y; sortResult cfg r) := by
  refine pair_exc h (fun e he => ends_badExc he) (fun e => pair_pure .error) fun a b hd => ?_
  unfold sortResult sortNng
  refine pair_bind (Q := DgEq) (pair_ite Iff.rfl (fun _ => ?_) fun _ => pair_pure hd) fun _ _ hd => pair_pure (.ok hd)
  refine pair_bind (pair_useK (by rw [hd.hbuf, hd.tbuf, hd.n])) fun a b hab => ?_
  subst hab
  exact pair_pure (hd.setHead _)

theorem pair_nngWithSize (cfg : Cfg) (hs : spi.Firm) (n S len : Nat) {p p' : Option Arr} (rs : Bool) (r : F) (hp : ArrEq p p') :
    Pair BadExc (ExcAlike DgEq) (nngWithSize cfg spi n S len p rs r) (nngWithSize cfg spi n S len p' rs r) := pair_sortResult cfg (pair_nngSizeArcs cfg hs n S len rs r hp)

/-! ### Type constraints -/

/-- Points grouped by type. -/
abbrev TypeCountEq : TypeCount → TypeCount → Prop := TypeCountAlike anyT

theorem pair_free3 {a a' b b' c c' : Nat} {B : α → Prop} {R : α → β → Prop} {x : M α} {y : M β} (h : Pair B R x y) :
    Pair B R (do freeId a; freeId b; freeId c; x) (do freeId a'; freeId b'; freeId c'; y) :=
  pair_bind pair_freeId fun _ _ _ => pair_bind pair_freeId fun _ _ _ => pair_bind pair_freeId fun _ _ _ => h

theorem pair_typeCount (n S m : Nat) (tcs labels : Buf Nat) : Pair BadExc (ExcAlike TypeCountEq) (typeCount n S m tcs labels) (typeCount n S m tcs labels) := by
  unfold typeCount
  refine pair_new pair_get (ends_next fun a => ends_next fun b => ?_) fun a b h1 => pair_new pair_get (ends_next fun a => ?_) fun a b h2 => pair_new pair_get ?_ fun a b h3 => ?_
  · exact ends_next fun _ => ends_next fun _ => ends_next fun _ => ends_badFail badMemory
  · cases h1
    exact ends_next fun _ => ends_next fun _ => ends_next fun _ => ends_badFail badMemory
  · cases h1
    cases h2
    exact ends_next fun _ => ends_next fun _ => ends_next fun _ => ends_badFail badMemory
  cases h1
  cases h2
  cases h3
  dsimp only
  refine pair_bind (pair_useK rfl) fun a b hab => ?_
  subst hab
  refine pair_bind (pair_useK rfl) fun a b hab => ?_
  subst hab
  cases a with
  | none => exact pair_free3 pair_fail
  | some sum =>
    refine pair_ite Iff.rfl (fun _ => pair_free3 pair_fail) fun _ => ?_
    refine pair_bind (pair_useK rfl) fun a b hab => ?_
    subst hab
    refine pair_bind (pair_useK rfl) fun a b hab => ?_
    subst hab
    exact pair_pure (.ok (.mk nm nm nm))

/-- States of the loop over types. -/
abbrev TypeStEq : TypeSt → TypeSt → Prop := TypeStAlike anyT

theorem pair_initSeedable (n m : Nat) {q q' : Option Arr} (rs : Bool) (hq : ArrEq q q') : Pair BadExc (ExcAlike PtrEq) (initSeedable n m q rs) (initSeedable n m q' rs) := by
  unfold initSeedable
  refine pair_ite Iff.rfl (fun _ => pair_new pair_get (ends_badFail badMemory) fun a b hab => ?_) fun _ => pair_pure (.ok .null)
  cases hab
  refine pair_bind (pair_useK (fillSeedable_congr _ _ _ hq)) fun a b hab => ?_
  subst hab
  exact pair_pure (.ok (.ptr nm))

theorem pair_typeNngStep (cfg : Cfg) (hs : spi.Firm) (n : Nat) (tcs : Buf Nat) {tc tc' : TypeCount} {q q' : Option Arr} (rs : Bool) (r : F) (htc : TypeCountEq tc tc') (hq : ArrEq q q')
    (a b : TypeSt) (i : Nat) (h : TypeStEq a b) :
    Pair BadCtl (CtlAlike TypeStEq (PairAlike Eq TypeStEq)) (typeNngStep cfg spi n tcs tc q rs r a i) (typeNngStep cfg spi n tcs tc' q' rs r b i) := by
  obtain ⟨ha, hb, hc⟩ := htc
  obtain ⟨hl, hp⟩ := h
  unfold typeNngStep
  refine pair_bind (pair_useK rfl) fun a b hab => ?_
  subst hab
  refine pair_ite Iff.rfl (fun _ => ?_) fun _ => pair_pure (.next (.mk hl hp))
  refine pair_bind (pair_useK rfl) fun a b hab => ?_
  subst hab
  dsimp only
  rw [seedOut_alike hp]
  refine pair_exc (pair_makeNng cfg hs _ _ _ _ _ _ _ (.arr (.cons hb .nil)) (queriesOf_alike hp hq)) (fun e he => ends_pure (badCtl_stop he)) (fun e => pair_pure (.stop ⟨rfl, .mk hl hp⟩)) fun a b h => ?_
  obtain ⟨hd⟩ := h
  dsimp only
  refine pair_bind (pair_isEmpty hd) fun a b hab => ?_
  subst hab
  refine pair_ite Iff.rfl (fun _ => pair_bind pair_mkErr fun _ _ he => pair_pure (.stop ⟨he, .mk (List.rel_append hl (.cons hd .nil)) (hp.set _)⟩)) fun _ => ?_
  rw [hd.hbuf, hd.tbuf]
  refine pair_bind (pair_useK (selfMatch_congr (T := anyT) _ _ _ (.arr (.cons hb .nil)))) fun a b hab => ?_
  subst hab
  exact pair_pure (.next (.mk (List.rel_append hl (.cons (hd.setHead _) .nil)) (hp.set _)))

theorem pair_freeDigraphs {l l' : List Digraph} (h : List.Forall₂ DgEq l l') : Pair never Eq (freeDigraphs l) (freeDigraphs l') := by
  unfold freeDigraphs
  induction h with
  | nil => exact pair_pure rfl
  | cons h _ ih =>
    rw [List.foldlM_cons, List.foldlM_cons]
    exact pair_bind (Q := Eq) (pair_bind (pair_freeDigraph h) fun _ _ _ => pair_pure rfl) fun _ _ _ => ih

theorem pair_unionQueries (cfg : Cfg) {l l' : List Digraph} (m : Nat) {q q' : Option Arr} (keep : Bool) (hl : List.Forall₂ DgEq l l') (hq : ArrEq q q') :
    Pair BadExc (ExcAlike DgEq) (unionQueries cfg l m q keep) (unionQueries cfg l' m q' keep) := by
  cases hq with
  | null => exact pair_unionAndDelete cfg none keep hl
  | arr h =>
    refine pair_bind (pair_useK rfl) fun a b hab => ?_
    subst hab
    exact pair_unionAndDelete cfg _ keep hl

theorem pair_extraArcs (cfg : Cfg) {m m' d d' : Digraph} (k : Nat) (hm : DgEq m m') (hd : DgEq d d') : Pair BadPair (PairAlike Eq DgEq) (extraArcs cfg m d k) (extraArcs cfg m' d' k) := by
  unfold extraArcs
  refine pair_bind (pair_isEmpty hm) fun a b hab => ?_
  subst hab
  exact pair_ite Iff.rfl (fun _ => pair_bind pair_mkErr fun _ _ he => pair_pure ⟨he, hm⟩) fun _ => pair_digraphDifference cfg k hm hd

theorem pair_addGeneral (cfg : Cfg) (hs : spi.Firm) (n S sum : Nat) {q q' : Option Arr} (rs : Bool) (r : F) (m : Nat) {p p' : Option (Blk Nat)} {d d' : Digraph} (hq : ArrEq q q')
    (hp : PtrEq p p') (hd : DgEq d d') : Pair BadExc (ExcAlike DgEq) (addGeneral cfg spi n S sum q rs r m p d) (addGeneral cfg spi n S sum q' rs r m p' d') := by
  unfold addGeneral
  refine pair_ite Iff.rfl (fun _ => ?_) fun _ => pair_bind (pair_freePtr hp) fun _ _ _ => pair_pure (.ok hd)
  rw [seedOut_alike hp]
  refine pair_exc (pair_makeNng cfg hs _ _ _ _ _ _ _ .null (queriesOf_alike hp hq)) (fun e he => ends_next fun _ => ends_next fun _ => ends_badExc he)
    (fun e => pair_bind (pair_freePtr hp) fun _ _ _ => pair_bind (pair_freeDigraph hd) fun _ _ _ => pair_pure .error) fun a b h => ?_
  obtain ⟨hg⟩ := h
  refine pair_code (pair_extraArcs cfg _ hg hd) (fun e a he => ends_code he (ends_next fun _ => ends_next fun _ => ends_next fun _ => ends_badExc he)) fun e a b hg => ?_
  refine pair_ite Iff.rfl (fun _ => pair_bind (pair_freeDigraph hd) fun _ _ _ => pair_bind (pair_freeDigraph hg) fun _ _ _ => pair_bind (pair_freePtr hp) fun _ _ _ => pair_pure .error) fun _ => ?_
  refine pair_try (pair_unionQueries cfg _ _ (.cons hd (.cons hg .nil)) (queriesOf_alike (hp.set _) hq)) (fun a ha => ends_next fun _ => ends_next fun _ => ends_next fun _ => ends_pure ha) fun _ _ hu =>
    pair_bind (pair_freeDigraph hd) fun _ _ _ => pair_bind (pair_freeDigraph hg) fun _ _ _ => pair_bind (pair_freePtr hp) fun _ _ _ => pair_pure hu

theorem pair_nngTypeArcs (cfg : Cfg) (hs : spi.Firm) (n S m : Nat) (tcs labels : Buf Nat) (len : Nat) {q q' : Option Arr} (rs : Bool) (r : F) (hq : ArrEq q q') :
    Pair BadExc (ExcAlike DgEq) (nngTypeArcs cfg spi n S m tcs labels len q rs r) (nngTypeArcs cfg spi n S m tcs labels len q' rs r) := by
  unfold nngTypeArcs
  rw [hq.isNone]
  refine pair_exc (pair_initSeedable _ _ rs hq) (fun e he => ends_badExc he) (fun e => pair_pure .error) fun p p' hp => ?_
  refine pair_new pair_get (ends_next fun _ => ends_badFail badMemory) fun a b hab => ?_
  cases hab
  refine pair_exc (pair_typeCount _ _ _ _ _) (fun e he => ends_next fun _ => ends_next fun _ => ends_badExc he)
    (fun e => pair_bind (pair_freePtr hp) fun _ _ _ => pair_bind pair_freeId fun _ _ _ => pair_pure .error) fun tc tc' htc => ?_
  refine pair_loop (fun a b i _ => pair_typeNngStep cfg hs _ _ _ _ htc hq a b i) (.mk .nil hp) (fun e c he => ?_) (fun e c d h => ?_) fun a b h => ?_
  · exact ends_next fun _ => ends_next fun _ => ends_next fun _ => ends_next fun _ => ends_next fun _ => ends_next fun _ => ends_badExc he
  · obtain ⟨hl, hp⟩ := h
    obtain ⟨h1, h2, h3⟩ := htc
    exact pair_free3 (pair_bind (pair_freeDigraphs hl) fun _ _ _ => pair_bind pair_freeId fun _ _ _ => pair_bind (pair_freePtr hp) fun _ _ _ => pair_pure .error)
  · obtain ⟨hl, hp⟩ := h
    obtain ⟨h1, h2, h3⟩ := htc
    refine pair_free3 (pair_bind pair_touch fun _ _ _ => ?_)
    refine pair_exc (pair_unionQueries cfg _ _ hl (queriesOf_alike hp hq)) (fun e he => ends_next fun _ => ends_next fun _ => ends_next fun _ => ends_badExc he)
      (fun e => pair_bind (pair_freeDigraphs hl) fun _ _ _ => pair_bind pair_freeId fun _ _ _ => pair_bind (pair_freePtr hp) fun _ _ _ => pair_pure .error) fun d d' hd => ?_
    exact pair_bind (pair_freeDigraphs hl) fun _ _ _ => pair_bind pair_freeId fun _ _ _ => pair_addGeneral cfg hs _ _ _ _ _ _ hq hp hd

theorem pair_nngWithTypes (cfg : Cfg) (hs : spi.Firm) (n S m : Nat) (tcs labels : Buf Nat) (len : Nat) {q q' : Option Arr} (rs : Bool) (r : F) (hq : ArrEq q q') :
    Pair BadExc (ExcAlike DgEq) (nngWithTypes cfg spi n S m tcs labels len q rs r) (nngWithTypes cfg spi n S m tcs labels len q' rs r) :=
  pair_sortResult cfg (pair_nngTypeArcs cfg hs n S m tcs labels len rs r hq)

/-! ### Estimating the radius -/

section Estimating
variable [FloatOps F]

/-- A bad way to leave the loop. -/
def BadStop (r : Ctl α ErrorCode) : Prop := ∃ e, r = .stop e ∧ BadCode e

theorem pair_estimateStep (hs : spi.Firm) {sr sr' : SeedResult} {d d' : Digraph} {i i' : Nat} (hr : SeedsSame sr sr') (hd : DgEq d d') (a b : Nat × F × Buf F) (x : Nat) (hx : x < sr.count)
    (hab : a = b) : Pair BadStop (CtlAlike Eq Eq) (estimateStep spi sr d i a x) (estimateStep spi sr' d' i' b x) := by
  subst hab
  unfold estimateStep
  rw [hd.tbuf, hd.hbuf]
  refine pair_bind (pair_useK (by unfold seedArcs; rw [hr.get (by omega)])) fun u v huv => ?_
  subst huv
  refine pair_bind pair_touch fun _ _ _ => pair_bind (hs.distRows _ _ _ _ _ _ _ rfl rfl) fun u v huv => ?_
  have hbad : ∀ {l : Nat} {f : String}, Ends (do freeId i; let e ← mkErr .distSearch f l; pure (.stop e) : M (Ctl (Nat × F × Buf F) ErrorCode)) BadStop :=
    ends_next fun _ => ends_bind ends_mkErr fun e he => ends_pure ⟨_, rfl, he ▸ badSearch⟩
  rcases huv with rfl | rfl
  · exact pair_bad hbad
  · cases u with
    | none => exact pair_bad hbad
    | some dists =>
      refine pair_bind (pair_useK rfl) fun u v huv => ?_
      subst huv
      exact pair_pure (.next rfl)

theorem pair_estimateAvg (hs : spi.Firm) {sr sr' : SeedResult} {d d' : Digraph} (S : Nat) (hr : SeedsSame sr sr') (hd : DgEq d d') :
    Pair BadExc (ExcAlike Eq) (estimateAvg spi sr d S) (estimateAvg spi sr' d' S) := by
  unfold estimateAvg
  rw [← hr.count]
  refine pair_new pair_get (ends_badFail badMemory) fun a b hab => ?_
  cases hab
  have hin : ∀ i ∈ sampleIndices sr.count, i < sr.count := by
    obtain ⟨s, -, h, -⟩ := sampleIndices_eq sr.count
    intro i hi
    rw [h] at hi
    exact List.mem_range.1 (List.mem_filter.1 hi).1
  refine pair_try (pair_foldMem (by rintro _ ⟨_, h, _⟩; cases h) _ (fun a b x hx => pair_estimateStep hs hr hd a b x (hin x hx)) rfl) (fun a ha => ?_) fun a b hab => ?_
  · obtain ⟨e, rfl, he⟩ := ha
    exact ends_badExc he
  · cases hab with
    | next h => exact pair_bind pair_freeId fun _ _ _ => pair_pure (.ok (by rw [h]))
    | stop h => exact pair_pure (h ▸ .error)

end Estimating

/-! ### Assigning labels -/

theorem foldlM_mem {σ ε : Type} {f g : σ → ε → Option σ} {l : List ε} (h : ∀ s e, e ∈ l → f s e = g s e) (s : σ) : l.foldlM f s = l.foldlM g s := by
  induction l generalizing s with
  | nil => rfl
  | cons e l ih =>
    rw [List.foldlM_cons, List.foldlM_cons, h s e List.mem_cons_self]
    congr 1
    funext s
    exact ih (fun s e he => h s e (List.mem_cons_of_mem _ he)) s

theorem assignSeeds_congr (cfg : Cfg) (n count : Nat) {s t : Buf Nat} (head tail : Buf Nat) (labels : Buf Int) (h : ∀ i, i < count → s.get i = t.get i) :
    assignSeeds cfg n count s head tail labels = assignSeeds cfg n count t head tail labels := by
  unfold assignSeeds
  congr 1
  funext labels
  unfold forNe
  rw [if_pos (Nat.zero_le count), if_pos (Nat.zero_le count)]
  refine foldlM_mem (fun st e he => ?_) _
  dsimp only
  rw [h e (by rw [List.mem_range'_1] at he; omega)]

theorem pair_assignByNng (cfg : Cfg) (n : Nat) {d d' : Digraph} {l l' : Option (Blk Int)} (hd : DgEq d d') (hl : PtrEq l l') : Pair never Eq (assignByNng cfg n d l) (assignByNng cfg n d' l') := by
  unfold assignByNng
  rw [hl.buf, hd.hbuf, hd.tbuf]
  refine pair_bind pair_getU fun a b hab => ?_
  cases hab
  refine pair_bind (pair_useK rfl) fun a b hab => ?_
  subst hab
  refine pair_bind (pair_useK rfl) fun a b hab => ?_
  exact pair_bind pair_freeId fun _ _ _ => pair_pure hab

/-- The search in the first round: its failure is reported. -/
theorem pair_assignBySearch (hs : spi.Firm) {o o' : spi.NN} {l l' : Option (Blk Int)} (num : Nat) {i j : Nat} {ta : Buf Nat} (rs : Bool) (r : F) (ho : hs.nn 1 o o') (hl : PtrEq l l') :
    Pair BadPair Eq (assignBySearch spi o l num ⟨i, ta⟩ rs r) (assignBySearch spi o' l' num ⟨j, ta⟩ rs r) := by
  unfold assignBySearch
  rw [hl.buf]
  refine pair_bind pair_getU fun p p' hp => ?_
  cases hp
  refine pair_bind pair_touch fun _ _ _ => ?_
  refine pair_bind (hs.nnSearch _ _ _ _ _ _ _ _ _ _ ho rfl) fun a b hab => ?_
  have hbad : ∀ (p : Option (Blk Nat)) (x : Buf Int × Buf Nat), Ends (do freePtr p; let e ← mkErr .distSearch "src/nng_core.c" 1024; pure (e, x)) BadPair := fun p x => ends_next fun _ => ends_badErr badSearch
  rcases hab with rfl | rfl
  · exact pair_bad (hbad _ _)
  cases a with
  | none => exact pair_bad (hbad _ _)
  | some r =>
    refine pair_bind (pair_useK rfl) fun a b hab => ?_
    subst hab
    exact pair_bind (pair_freePtr (.ptr nm)) fun _ _ _ => pair_pure rfl

/-- The first array of labels is the second one, except that points may be unassigned in it when `P` holds. -/
def Lab (cfg : Cfg) (P : Prop) (b b' : Buf Int) : Prop := ∀ v, b.get v = b'.get v ∨ (P ∧ b.get v = some cfg.na ∧ ∃ x, b'.get v = some x)

theorem lab_refl {cfg : Cfg} {P : Prop} {b : Buf Int} : Lab cfg P b b := fun _ => Or.inl rfl

theorem get_set {b c : Buf α} {i : Nat} {x : α} (h : b.set i x = some c) (j : Nat) : c.get j = if j = i then some x else b.get j := by
  unfold Buf.set at h
  by_cases hi : i < b.len
  · rw [if_pos hi] at h
    cases h
    show (if j < b.len then (if j = i then some x else b.cell j) else none) = _
    by_cases hj : j = i
    · subst hj; rw [if_pos hi, if_pos rfl, if_pos rfl]
    · rw [if_neg hj, if_neg hj]; rfl
  · rw [if_neg hi] at h; cases h

theorem forLt_inv {σ : Type} {I : Nat → σ → Prop} {a b : Nat} {s t : σ} {f : Nat → σ → Option σ} (hab : a ≤ b) (h0 : I a s) (hf : ∀ i s s', a ≤ i → i < b → I i s → f i s = some s' → I (i + 1) s') (h : forLt a b s f = some t) :
    I b t := by
  unfold forLt at h
  obtain ⟨k, rfl⟩ := Nat.exists_eq_add_of_le hab
  rw [Nat.add_sub_cancel_left] at h
  clear hab
  have key : ∀ (k i : Nat) (s : σ), a ≤ i → I i s → (∀ j s s', i ≤ j → j < i + k → I j s → f j s = some s' → I (j + 1) s') → (List.range' i k).foldlM (fun s i => f i s) s = some t → I (i + k) t := by
    intro k
    induction k with
    | zero => intro i s _ hs _ h; cases h; exact hs
    | succ k ih =>
      intro i s hi hs hf h
      rw [List.range'_succ, List.foldlM_cons] at h
      obtain ⟨s', h1, h2⟩ := obind h
      have := ih (i + 1) s' (by omega) (hf i s s' (le_refl _) (by omega) hs h1) (fun j s s' h1 h2 => hf j s s' (by omega) (by omega)) h2
      rwa [show i + 1 + k = i + (k + 1) by omega] at this
  exact key k a s (le_refl _) h0 (fun j s s' h1 h2 => hf j s s' h1 h2) h

theorem copyFromNN_lab {cfg : Cfg} {m : Nat} {q nn : Buf Nat} {b c : Buf Int} (hq : ∀ j, j < m → ∀ p, q.get j = some p → b.get p = some cfg.na) (h : copyFromNN m q nn b = some c) : Lab cfg True b c := by
  unfold copyFromNN at h
  refine forLt_inv (I := fun _ c => Lab cfg True b c) (Nat.zero_le _) lab_refl (fun i s s' _ hi hs hf => ?_) h
  obtain ⟨x, _, hf⟩ := obind hf
  obtain ⟨l, _, hf⟩ := obind hf
  obtain ⟨p, hp, hf⟩ := obind hf
  intro v
  rw [get_set hf]
  by_cases hv : v = p
  · subst hv
    rw [if_pos rfl]
    exact Or.inr ⟨trivial, hq i hi v hp, l, rfl⟩
  · rw [if_neg hv]
    exact hs v

theorem listUnassigned_na {cfg : Cfg} {len : Nat} {pts : Option (Buf Nat)} {b : Buf Int} {ta c : Buf Nat} {num : Nat} (h : listUnassigned cfg len pts b ta = some (c, num)) :
    ∀ i, i < num → ∃ p, c.get i = some p ∧ b.get p = some cfg.na := by
  unfold listUnassigned at h
  refine forLt_inv (I := fun _ s => ∀ i, i < s.2 → ∃ p, s.1.get i = some p ∧ b.get p = some cfg.na) (Nat.zero_le _) (fun i hi => absurd hi (Nat.not_lt_zero i)) (fun k s s' _ _ hs hf => ?_) h
  obtain ⟨ta, num⟩ := s
  obtain ⟨p, hp, hf⟩ := obind hf
  obtain ⟨ta', ht, hf⟩ := obind hf
  obtain ⟨l, hl, hf⟩ := obind hf
  cases hf
  dsimp only at hs ⊢
  intro i hi
  rw [get_set ht]
  by_cases hin : i = num
  · rw [if_pos hin]
    subst hin
    by_cases hna : l = cfg.na
    · exact ⟨p, rfl, by rw [hl, hna]⟩
    · rw [if_neg hna] at hi; omega
  · rw [if_neg hin]
    refine hs i ?_
    by_cases hna : l = cfg.na
    · rw [if_pos hna] at hi; omega
    · rw [if_neg hna] at hi; omega

/-- `x` does not change which requests fail, and its outcome satisfies `P`. -/
def Keeps (x : M α) (P : α → Prop) : Prop := ∀ w r, x w = some r → r.2.fails = w.fails ∧ P r.1

theorem keeps_pure {a : α} {P : α → Prop} (h : P a) : Keeps (pure a) P := by
  intro w r hr
  cases hr
  exact ⟨rfl, h⟩

theorem keeps_bind {x : M γ} {f : γ → M α} {Q : γ → Prop} {P : α → Prop} (hx : Keeps x Q) (hf : ∀ a, Q a → Keeps (f a) P) : Keeps (x >>= f) P := by
  intro w r hr
  obtain ⟨a, w1, h1, h2⟩ := bind_eq.1 hr
  obtain ⟨h3, h4⟩ := hx _ _ h1
  obtain ⟨h5, h6⟩ := hf a h4 _ _ h2
  exact ⟨h5.trans h3, h6⟩

theorem keeps_freePtr {p : Option (Blk α)} : Keeps (freePtr p) fun _ => True := by
  intro w r hr
  cases p with
  | none => cases hr; exact ⟨rfl, trivial⟩
  | some b =>
    unfold freePtr freeId at hr
    by_cases hi : b.id ∈ w.live
    · dsimp only at hr
      rw [if_pos hi] at hr; cases hr; exact ⟨rfl, trivial⟩
    · dsimp only at hr
      rw [if_neg hi] at hr; cases hr

theorem keeps_mkErr {e : ErrorCode} {f : String} {l : Nat} {m : Option String} : Keeps (mkErr e f l m) fun a => a = e := by
  intro w r hr
  cases hr
  exact ⟨rfl, rfl⟩

theorem keeps_useK {l : List Nat} {k : Option α} {P : α → Prop} (h : ∀ a, k = some a → P a) : Keeps (useK l k) P := by
  intro w r hr
  unfold useK at hr
  by_cases hl : ∀ i ∈ l, i ∈ w.live
  · rw [if_pos hl] at hr
    cases k with
    | none => cases hr
    | some a => cases hr; exact ⟨rfl, h a rfl⟩
  · rw [if_neg hl] at hr; cases hr

/-- Two steps that have nothing to do with each other. -/
theorem pair_keeps {x : M α} {y : M β} {P : α → Prop} {Q : β → Prop} {R : α → β → Prop} (hx : Keeps x P) (hy : Keeps y Q) (h : ∀ a b, P a → Q b → R a b) : Pair never R x y := by
  intro w v r s hw hv h1 h2
  obtain ⟨h3, h4⟩ := hx _ _ h1
  obtain ⟨h5, h6⟩ := hy _ _ h2
  exact Or.inr ⟨h _ _ h4 h6, fun i => by rw [h3]; exact hw i, fun i c => by rw [h5]; exact hv i c⟩

/-- The search in the second round: its failure is not reported. Then the labels remain what they are. -/
theorem pair_assignSecond (cfg : Cfg) (hs : spi.Firm) {o o' : spi.NN} {l l' : Option (Blk Int)} (num : Nat) {i j : Nat} {ta : Buf Nat} (rs : Bool) (r : F) (ho : hs.nn 1 o o') (hl : PtrEq l l')
    (ht : ∀ i, i < num → ∃ p, ta.get i = some p ∧ (ptrBuf l').get p = some cfg.na) :
    Pair never (fun a b => Lab cfg True a.2.1 b.2.1) (assignBySearch spi o l num ⟨i, ta⟩ rs r) (assignBySearch spi o' l' num ⟨j, ta⟩ rs r) := by
  unfold assignBySearch
  rw [hl.buf]
  refine pair_bind pair_getU fun p p' hp => ?_
  cases hp
  refine pair_bind pair_touch fun _ _ _ => ?_
  have hfirm := hs.nnSearch o o' num (some ⟨[i], ta⟩) (some ⟨[j], ta⟩) 1 rs r (if rs then .same else .null) (Buf.raw num) ho rfl
  have hsr : Pair never (fun a a' => (a = none ∨ a = a') ∧ ∀ res, a' = some res → ∀ k, k < res.numOk → ∀ p, (if rs then res.outQ else ta).get k = some p → (ptrBuf l').get p = some cfg.na)
      (spi.nnSearch o num (some ⟨[i], ta⟩) 1 rs r (if rs then .same else .null) (Buf.raw num)) (spi.nnSearch o' num (some ⟨[j], ta⟩) 1 rs r (if rs then .same else .null) (Buf.raw num)) := by
    intro w v a b hw hv h1 h2
    rcases hfirm w v a b hw hv h1 h2 with h | ⟨h, h3⟩
    · exact h.elim
    · refine Or.inr ⟨⟨h, fun res hres k hk p hp => ?_⟩, h3⟩
      obtain ⟨b, v'⟩ := b
      dsimp only at hres
      subst hres
      cases rs with
      | true =>
        obtain ⟨m, hm, hg⟩ := hs.answered _ _ _ _ _ _ _ _ _ h2 k hk p hp
        obtain ⟨p', h4, h5⟩ := ht m hm
        rw [hg] at h4
        cases h4
        exact h5
      | false =>
        have := hs.counted _ _ _ _ _ _ _ _ _ _ h2
        obtain ⟨p', h4, h5⟩ := ht k (by omega)
        have hp : ta.get k = some p := hp
        rw [hp] at h4
        cases h4
        exact h5
  refine pair_bind hsr fun a b hab => ?_
  obtain ⟨hab, hq⟩ := hab
  have hlose : ∀ (p : Option (Blk Nat)), Keeps (do freePtr p; let e ← mkErr .distSearch "src/nng_core.c" 1024; pure (e, ptrBuf l', ta) : M (ErrorCode × Buf Int × Buf Nat)) fun a => a.2.1 = ptrBuf l' :=
    fun p => keeps_bind keeps_freePtr fun _ _ => keeps_bind keeps_mkErr fun _ _ => keeps_pure rfl
  rcases hab with rfl | rfl
  · cases b with
    | none => exact pair_keeps (hlose _) (hlose _) fun a b ha hb => by rw [ha, hb]; exact lab_refl
    | some res =>
      refine pair_keeps (hlose _) (Q := fun b => Lab cfg True (ptrBuf l') b.2.1) ?_ fun a b ha hb => by rw [ha]; exact hb
      exact keeps_bind (keeps_useK fun c hc => copyFromNN_lab (hq res rfl) hc) fun _ h => keeps_bind keeps_freePtr fun _ _ => keeps_pure h
  · cases a with
    | none => exact pair_keeps (hlose _) (hlose _) fun a b ha hb => by rw [ha, hb]; exact lab_refl
    | some r =>
      refine pair_bind (pair_useK rfl) fun a b hab => ?_
      subst hab
      exact pair_bind (pair_freePtr (.ptr nm)) fun _ _ _ => pair_pure lab_refl

theorem pair_initAssigned (cfg : Cfg) (n num : Nat) (need : Bool) {l l' : Option (Blk Int)} (hl : PtrEq l l') :
    Pair BadExc (ExcAlike PtrEq) (initAssigned cfg n num need l) (initAssigned cfg n num need l') := by
  unfold initAssigned
  refine pair_ite Iff.rfl (fun _ => pair_new pair_get (ends_badFail badMemory) fun a b hab => ?_) fun _ => pair_pure (.ok .null)
  cases hab
  refine pair_bind (pair_useK (by rw [hl.buf])) fun a b hab => ?_
  subst hab
  exact pair_pure (.ok (.ptr nm))

theorem pair_initNN (hs : spi.Firm) (need : Bool) (len : Nat) {p p' : Option (Blk Nat)} (line : Nat) (hp : SameEntries (max len 1) (p.map fun b => ⟨[b.id], b.buf⟩) (p'.map fun b => ⟨[b.id], b.buf⟩)) :
    Pair BadExc (ExcAlike (OptAlike (hs.nn 1))) (initNN spi need len p line) (initNN spi need len p' line) := by
  unfold initNN
  refine pair_ite Iff.rfl (fun _ => pair_bind (hs.nnInit _ 1 _ _ hp) fun a b hab => ?_) fun _ => pair_pure (.ok .none)
  rcases hab with rfl | ⟨x, y, rfl, rfl, ho⟩
  · exact pair_bad (ends_badFail badSearch)
  · exact pair_pure (.ok (.some ho))

theorem SeedsSame.entries {s t : SeedResult} (h : SeedsSame s t) : SameEntries (max s.count 1) (s.seeds.map fun b => ⟨[b.id], b.buf⟩) (t.seeds.map fun b => ⟨[b.id], b.buf⟩) := by
  cases h with | mk h => exact ⟨rfl, h⟩

theorem pair_closeNN (hs : spi.Firm) {o o' : Option spi.NN} (h : OptAlike (hs.nn 1) o o') : Pair never Eq (closeNN spi o) (closeNN spi o') := by
  cases h with
  | none => exact pair_pure rfl
  | some h => exact pair_bind (hs.nnClose _ _ _ h) fun _ _ _ => pair_pure rfl

theorem pair_useObj (hs : spi.Firm) {o o' : Option spi.NN} (h : OptAlike (hs.nn 1) o o') : Pair never (hs.nn 1) (useK [] o) (useK [] o') := by
  refine pair_useKR fun a b h1 h2 => ?_
  subst h1 h2
  cases h with
  | some h => exact h

theorem pair_assignFirst (hs : spi.Firm) {oa os oa' os' : Option spi.NN} (um : UnassignedMethod) {l l' : Option (Blk Int)} (num : Nat) {i j : Nat} {ta : Buf Nat} (rs : Bool) (r : F)
    (ha : OptAlike (hs.nn 1) oa oa') (ho : OptAlike (hs.nn 1) os os') (hl : PtrEq l l') :
    Pair BadPair Eq (assignUnassigned spi oa os um l num ⟨i, ta⟩ rs r) (assignUnassigned spi oa' os' um l' num ⟨j, ta⟩ rs r) := by
  have hx : Pair BadPair Eq (pure (ErrorCode.ok, ptrBuf l, ta) : M (ErrorCode × Buf Int × Buf Nat)) (pure (ErrorCode.ok, ptrBuf l', ta)) := pair_pure (by rw [hl.buf])
  unfold assignUnassigned
  refine pair_ite Iff.rfl (fun _ => ?_) fun _ => hx
  refine pair_ite Iff.rfl (fun _ => pair_bind (pair_useObj hs ha) fun _ _ h => pair_assignBySearch hs _ _ _ h hl) fun _ => ?_
  exact pair_ite Iff.rfl (fun _ => pair_bind (pair_useObj hs ho) fun _ _ h => pair_assignBySearch hs _ _ _ h hl) fun _ => hx

/-- The secondary method uses a search. -/
abbrev Searches (um : UnassignedMethod) : Prop := um = .closestAssigned ∨ um = .closestSeed

theorem pair_secondRound (cfg : Cfg) (hs : spi.Firm) {oa os oa' os' : Option spi.NN} (um : UnassignedMethod) (n : Nat) {l l' : Option (Blk Int)} {i j : Nat} {ta : Buf Nat} (rs : Bool) (r : F)
    (ha : OptAlike (hs.nn 1) oa oa') (ho : OptAlike (hs.nn 1) os os') (hl : PtrEq l l') :
    Pair never (Lab cfg (Searches um)) (secondRound cfg spi oa os um n l ⟨i, ta⟩ rs r) (secondRound cfg spi oa' os' um n l' ⟨j, ta⟩ rs r) := by
  unfold secondRound
  refine pair_ite Iff.rfl (fun _ => ?_) fun _ => pair_pure (by rw [hl.buf]; exact lab_refl)
  refine pair_bind (Q := fun a b => a = b ∧ ∀ i, i < b.2 → ∃ p, b.1.get i = some p ∧ (ptrBuf l').get p = some cfg.na) (pair_useKR fun a b h1 h2 => ?_) fun a b hab => ?_
  · rw [hl.buf] at h1
    refine ⟨?_, listUnassigned_na h2⟩
    have := h1.symm.trans h2
    exact Option.some.inj this
  obtain ⟨rfl, ht⟩ := hab
  obtain ⟨c, num⟩ := a
  dsimp only at ht ⊢
  refine pair_bind (Q := fun a b => Lab cfg (Searches um) a.2.1 b.2.1) ?_ fun a b hab => pair_pure hab
  have hx : Pair never (fun a b => Lab cfg (Searches um) a.2.1 b.2.1) (pure (ErrorCode.ok, ptrBuf l, c) : M (ErrorCode × Buf Int × Buf Nat)) (pure (ErrorCode.ok, ptrBuf l', c)) := pair_pure (by rw [hl.buf]; exact lab_refl)
  have hy : Searches um → ∀ a b : ErrorCode × Buf Int × Buf Nat, Lab cfg True a.2.1 b.2.1 → Lab cfg (Searches um) a.2.1 b.2.1 := by
    intro hu a b h v
    rcases h v with h | ⟨_, h⟩
    · exact Or.inl h
    · exact Or.inr ⟨hu, h⟩
  unfold assignUnassigned
  refine pair_ite Iff.rfl (fun _ => ?_) fun _ => hx
  refine pair_ite Iff.rfl (fun hu => pair_bind (pair_useObj hs ha) fun _ _ h => pair_mono (pair_assignSecond cfg hs _ _ _ h hl ht) (fun _ => id) (hy (Or.inl hu))) fun _ => ?_
  exact pair_ite Iff.rfl (fun hu => pair_bind (pair_useObj hs ho) fun _ _ h => pair_mono (pair_assignSecond cfg hs _ _ _ h hl ht) (fun _ => id) (hy (Or.inr hu))) fun _ => hx

/-- Pointers to labels. -/
inductive LabPtr (cfg : Cfg) (P : Prop) : Option (Blk Int) → Option (Blk Int) → Prop
  | null : LabPtr cfg P none none
  | ptr {i j : Nat} {b b' : Buf Int} (h : Lab cfg P b b') : LabPtr cfg P (some ⟨i, b⟩) (some ⟨j, b'⟩)

theorem PtrAlike.lab {cfg : Cfg} {P : Prop} {l l' : Option (Blk Int)} (h : PtrEq l l') : LabPtr cfg P l l' := by
  cases h with
  | null => exact .null
  | ptr h => exact .ptr lab_refl

theorem PtrAlike.setLab {cfg : Cfg} {P : Prop} {l l' : Option (Blk Int)} {b b' : Buf Int} (h : PtrEq l l') (hb : Lab cfg P b b') : LabPtr cfg P (ptrSet l b) (ptrSet l' b') := by
  cases h with
  | null => exact .null
  | ptr h => exact .ptr hb

theorem pair_closeAll (hs : spi.Firm) {p p' : Option (Blk Nat)} {i i' : Nat} {oa os oa' os' : Option spi.NN} (hp : PtrEq p p') (ha : OptAlike (hs.nn 1) oa oa') (ho : OptAlike (hs.nn 1) os os') :
    Pair never Eq (closeAll spi p i oa os) (closeAll spi p' i' oa' os') :=
  pair_bind (pair_freePtr hp) fun _ _ _ => pair_bind pair_freeId fun _ _ _ => pair_bind (pair_closeNN hs ha) fun _ _ _ => pair_closeNN hs ho

theorem pair_searchRounds (cfg : Cfg) (hs : spi.Firm) (n : Nat) {l l' : Option (Blk Int)} {p p' : Option (Blk Nat)} {oa os oa' os' : Option spi.NN} {i j : Nat} {ta : Buf Nat}
    (um : UnassignedMethod) (rs : Bool) (r : F) (len : Nat) (primary : Option (Buf Nat)) (um2 : UnassignedMethod) (rs2 : Bool) (r2 : F) (hl : PtrEq l l') (hp : PtrEq p p')
    (ha : OptAlike (hs.nn 1) oa oa') (ho : OptAlike (hs.nn 1) os os') :
    Pair BadPair (PairAlike Eq (LabPtr cfg (Searches um2))) (searchRounds cfg spi n l p oa os ⟨i, ta⟩ um rs r len primary um2 rs2 r2) (searchRounds cfg spi n l' p' oa' os' ⟨j, ta⟩ um rs r len primary um2 rs2 r2) := by
  unfold searchRounds
  refine pair_bind (pair_useK (by rw [hl.buf])) fun a b hab => ?_
  subst hab
  refine pair_try (pair_assignFirst hs um _ _ _ ha ho hl) (fun a ha' => ?_) fun a b hab => ?_
  · obtain ⟨e, a⟩ := a
    exact ends_code (e := e) ha' (ends_next fun _ => ends_pure ha')
  subst hab
  refine pair_ite Iff.rfl (fun _ => pair_bind (pair_closeAll hs hp ha ho) fun _ _ _ => pair_pure ⟨rfl, (hl.set _).lab⟩) fun _ => ?_
  refine pair_bind (pair_secondRound cfg hs um2 _ _ _ ha ho (hl.set _)) fun a b hab => ?_
  exact pair_bind (pair_closeAll hs hp ha ho) fun _ _ _ => pair_pure ⟨rfl, hl.setLab hab⟩

theorem pair_assignRemaining (cfg : Cfg) (hs : spi.Firm) (n total num : Nat) {l l' : Option (Blk Int)} {p p' : Option (Blk Nat)} {sr sr' : SeedResult} (um : UnassignedMethod) (rs : Bool) (r : F)
    (len : Nat) (primary : Option (Buf Nat)) (um2 : UnassignedMethod) (rs2 : Bool) (r2 : F) (hl : PtrEq l l') (hp : PtrEq p p') (hr : SeedsSame sr sr') :
    Pair BadPair (PairAlike Eq (LabPtr cfg (Searches um2))) (assignRemaining cfg spi n total num l p sr um rs r len primary um2 rs2 r2) (assignRemaining cfg spi n total num l' p' sr' um rs r len primary um2 rs2 r2) := by
  unfold assignRemaining
  rw [← hr.count]
  refine pair_exc (pair_initNN hs _ _ _ (hp.arr.same _)) (fun e he => ends_next fun _ => ends_pure he) (fun e => pair_bind (pair_freePtr hp) fun _ _ _ => pair_pure ⟨rfl, hl.lab⟩) fun oa oa' ha => ?_
  refine pair_exc (pair_initNN hs _ _ _ hr.entries) (fun e he => ends_next fun _ => ends_next fun _ => ends_pure he)
    (fun e => pair_bind (pair_freePtr hp) fun _ _ _ => pair_bind (pair_closeNN hs ha) fun _ _ _ => pair_pure ⟨rfl, hl.lab⟩) fun os os' ho => ?_
  refine pair_new pair_get (ends_next fun _ => ends_next fun _ => ends_next fun _ => ends_badErr badMemory) fun a b hab => ?_
  cases hab
  exact pair_searchRounds cfg hs _ _ _ _ _ _ _ _ _ hl hp ha ho

/-- Clusterings whose labels are related. -/
inductive ClLab (cfg : Cfg) (P : Prop) : Clustering → Clustering → Prop
  | mk {v n k : Nat} {l l' : Option (Blk Int)} {e : Bool} (h : LabPtr cfg P l l') : ClLab cfg P ⟨v, n, k, l, e⟩ ⟨v, n, k, l', e⟩

theorem pair_makeClusters (cfg : Cfg) (hs : spi.Firm) {c c' : Clustering} {sr sr' : SeedResult} {d d' : Digraph} (ord : Bool) (um : UnassignedMethod) (rs : Bool) (r : F)
    (len : Nat) (primary : Option (Buf Nat)) (um2 : UnassignedMethod) (rs2 : Bool) (r2 : F) (hc : ClusteringAlike anyT c c') (hr : SeedsSame sr sr') (hd : DgEq d d') :
    Pair BadPair (PairAlike Eq (PairAlike (ClLab cfg (Searches um2)) DgEq)) (makeClusters cfg spi c sr d ord um rs r len primary um2 rs2 r2) (makeClusters cfg spi c' sr' d' ord um rs r len primary um2 rs2 r2) := by
  obtain ⟨hl⟩ := hc
  unfold makeClusters
  dsimp only
  rw [← hr.count, hd.hbuf, hd.tbuf, hl.buf, assignSeeds_congr cfg _ _ _ _ _ fun i hi => hr.get (by omega)]
  refine pair_bind (pair_useK rfl) fun a b hab => ?_
  subst hab
  obtain ⟨lb, num⟩ := a
  dsimp only
  have hl := hl.set lb
  refine pair_ite Iff.rfl (fun _ => pair_pure ⟨rfl, .mk hl.lab, hd⟩) fun _ => ?_
  refine pair_exc (pair_initAssigned cfg _ _ _ hl) (fun e he => ends_pure he) (fun e => pair_pure ⟨rfl, .mk hl.lab, hd⟩) fun p p' hp => ?_
  refine pair_ite Iff.rfl (fun _ => ?_) fun _ => ?_
  · refine pair_bind (pair_assignByNng cfg _ hd hl) fun a b hab => ?_
    subst hab
    refine pair_ite Iff.rfl (fun _ => pair_bind (pair_freePtr hp) fun _ _ _ => pair_pure ⟨rfl, .mk (hl.set _).lab, hd⟩) fun _ => ?_
    exact pair_bind (pair_freeDigraph hd) fun _ _ hd => pair_try (pair_assignRemaining cfg hs _ _ _ _ _ _ _ _ _ _ _ (hl.set _) hp hr) (fun a ha => ends_pure ha) fun _ _ h => pair_pure ⟨h.1, .mk h.2, hd⟩
  · exact pair_bind (pair_freeDigraph hd) fun _ _ hd => pair_try (pair_assignRemaining cfg hs _ _ _ _ _ _ _ _ _ _ _ hl hp hr) (fun a ha => ends_pure ha) fun _ _ h => pair_pure ⟨h.1, .mk h.2, hd⟩

end Scc
