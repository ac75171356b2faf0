/-
Calls that are made again in another state of the process do the same: the search for seeds.
-/
import Verif.Proofs.Repeat

namespace Scc

variable {T : Twin} {α β γ δ : Type}

/-- Lists of seeds with the same contents. -/
inductive SeedAlike (T : Twin) : SeedResult → SeedResult → Prop
  | mk {c k : Nat} {s s' : Option (Blk Nat)} (h : PtrAlike T s s') : SeedAlike T ⟨c, k, s⟩ ⟨c, k, s'⟩

theorem SeedAlike.seeds {s t : SeedResult} (h : SeedAlike T s t) : PtrAlike T s.seeds t.seeds := by cases h with | mk h => exact h
theorem SeedAlike.count {s t : SeedResult} (h : SeedAlike T s t) : s.count = t.count := by cases h with | mk h => rfl

theorem same_growSeeds (cfg : Cfg) {s t : SeedResult} (h : SeedAlike T s t) : T.Same (PairAlike Eq (SeedAlike T)) (growSeeds cfg s) (growSeeds cfg t) := by
  cases h with
  | mk h =>
    unfold growSeeds
    refine same_ite Iff.rfl (fun _ => same_bind (same_reallocHead _ h) fun a b hab => ?_) fun _ => same_pure ⟨rfl, .mk h⟩
    cases hab with
    | null => exact same_bind same_mkErr fun _ _ he => same_pure ⟨he, .mk h⟩
    | ptr h => exact same_pure ⟨rfl, .mk (.ptr h)⟩

theorem same_addSeed (cfg : Cfg) (v : Nat) {s t : SeedResult} (h : SeedAlike T s t) : T.Same (PairAlike Eq (SeedAlike T)) (addSeed cfg v s) (addSeed cfg v t) := by
  unfold addSeed
  refine same_ite (by rw [h.count]) (fun _ => same_bind same_mkErr fun _ _ he => same_pure ⟨he, h⟩) fun _ => same_bind (same_growSeeds cfg h) fun a b hab => ?_
  obtain ⟨e, s⟩ := a
  obtain ⟨e', t⟩ := b
  obtain ⟨he, h⟩ := hab
  dsimp only at he h ⊢
  subst he
  refine same_ite Iff.rfl (fun _ => same_pure ⟨rfl, h⟩) fun _ => ?_
  cases h with
  | mk h =>
    refine same_bind (same_useK h.ids (by rw [h.buf])) fun a b hab => ?_
    subst hab
    exact same_pure ⟨rfl, .mk (h.set _)⟩

theorem same_lexicalStep (cfg : Cfg) {d e : Digraph} {m m' : Nat} (hd : DigraphAlike T d e) (hm : T.Names m m') (a b : Buf Bool × SeedResult) (v : Nat) (h : PairAlike Eq (SeedAlike T) a b) :
    T.Same (CtlAlike (PairAlike Eq (SeedAlike T)) (PairAlike Eq (SeedAlike T))) (lexicalStep cfg d m a v) (lexicalStep cfg e m' b v) := by
  obtain ⟨ma, s⟩ := a
  obtain ⟨mb, t⟩ := b
  obtain ⟨he, h⟩ := h
  dsimp only at he h
  subst he
  unfold lexicalStep
  dsimp only
  rw [hd.hbuf, hd.tbuf]
  refine same_bind (same_useK (.cons hm hd.ids) rfl) fun a b hab => ?_
  subst hab
  refine same_ite Iff.rfl (fun _ => same_bind (same_addSeed cfg v h) fun a b hab => ?_) fun _ => same_pure (.next ⟨rfl, h⟩)
  obtain ⟨e, s⟩ := a
  obtain ⟨e', t⟩ := b
  obtain ⟨he, h⟩ := hab
  dsimp only at he h ⊢
  subst he
  refine same_ite Iff.rfl (fun _ => same_pure (.stop ⟨rfl, h⟩)) fun _ => ?_
  refine same_bind (same_useK (.cons hm hd.ids) rfl) fun a b hab => ?_
  subst hab
  exact same_pure (.next ⟨rfl, h⟩)

theorem same_findSeedsLexical (cfg : Cfg) {d e : Digraph} (cap : Nat) (hd : DigraphAlike T d e) : T.Same (ExcAlike (SeedAlike T)) (findSeedsLexical cfg d cap) (findSeedsLexical cfg e cap) := by
  unfold findSeedsLexical
  rw [hd.n]
  refine same_bind same_alloc fun a b hm => same_bind same_alloc fun a b hs => ?_
  have hx : ∀ a b c d, PtrAlike T a b → PtrAlike T c d → T.Same (ExcAlike (SeedAlike T)) (do freePtr (α := Bool) a; freePtr (α := Nat) c; fail .noMemory "src/nng_findseeds.c" 197)
      (do freePtr b; freePtr d; fail .noMemory "src/nng_findseeds.c" 197) := fun a b c d h1 h2 =>
    same_bind (same_freePtr h1) fun _ _ _ => same_bind (same_freePtr h2) fun _ _ _ => same_fail
  cases hm with
  | null => cases hs with
    | null => exact hx _ _ _ _ .null .null
    | ptr hs => exact hx _ _ _ _ .null (.ptr hs)
  | ptr hm => cases hs with
    | null => exact hx _ _ _ _ (.ptr hm) .null
    | ptr hs =>
      refine same_bind (same_foldBM (same_lexicalStep cfg hd hm) _ ⟨rfl, .mk (.ptr hs)⟩) fun a b hab => ?_
      cases hab with
      | next h => exact same_bind (same_freeId hm) fun _ _ _ => same_pure (.ok h.2)
      | @stop a b h =>
        obtain ⟨e, s⟩ := a
        obtain ⟨e', t⟩ := b
        obtain ⟨he, h⟩ := h
        dsimp only at he h ⊢
        subst he
        exact same_bind (same_freeId hm) fun _ _ _ => same_bind (same_freePtr h.seeds) fun _ _ _ => same_pure .error

/-! ### Sorting by inwards arcs -/

/-- Sorted vertices with the same contents. -/
inductive SortAlike (T : Twin) : SortResult → SortResult → Prop
  | mk {a a' b b' c c' d d' : Option (Blk Nat)} (ha : PtrAlike T a a') (hb : PtrAlike T b b') (hc : PtrAlike T c c') (hd : PtrAlike T d d') : SortAlike T ⟨a, b, c, d⟩ ⟨a', b', c', d'⟩

theorem SortAlike.ids {s t : SortResult} (h : SortAlike T s t) :
    IdsAlike T (ptrIds s.cnt ++ ptrIds s.sv ++ ptrIds s.vidx ++ ptrIds s.bidx) (ptrIds t.cnt ++ ptrIds t.sv ++ ptrIds t.vidx ++ ptrIds t.bidx) := by
  cases h with | mk ha hb hc hd => exact idsAlike_append (idsAlike_append (idsAlike_append ha.ids hb.ids) hc.ids) hd.ids

theorem SortAlike.queue {s t : SortResult} (h : SortAlike T s t) :
    (⟨ptrBuf s.cnt, ptrBuf s.sv, ptrBuf s.vidx, ptrBuf s.bidx⟩ : Queue) = ⟨ptrBuf t.cnt, ptrBuf t.sv, ptrBuf t.vidx, ptrBuf t.bidx⟩ := by
  cases h with | mk ha hb hc hd => rw [ha.buf, hb.buf, hc.buf, hd.buf]

theorem same_freeSort {s t : SortResult} (h : SortAlike T s t) : T.Same Eq (freeSort s) (freeSort t) := by
  cases h with
  | mk ha hb hc hd =>
    exact same_bind (same_freePtr ha) fun _ _ _ => same_bind (same_freePtr hb) fun _ _ _ => same_bind (same_freePtr hc) fun _ _ _ => same_freePtr hd

theorem same_finishSort (n : Nat) (ix : Bool) {c c' s s' b b' : Blk Nat} (hc : BlkAlike T c c') (hs : BlkAlike T s s') (hb : BlkAlike T b b') :
    T.Same (ExcAlike (SortAlike T)) (finishSort n ix c s b) (finishSort n ix c' s' b') := by
  obtain ⟨hc⟩ := hc
  obtain ⟨hs⟩ := hs
  obtain ⟨hb⟩ := hb
  unfold finishSort
  refine same_ite Iff.rfl (fun _ => same_bind same_alloc fun a b hab => ?_) fun _ => ?_
  · cases hab with
    | null => exact same_bind (same_freeSort (.mk (.ptr hc) (.ptr hs) .null (.ptr hb))) fun _ _ _ => same_fail
    | ptr hv =>
      refine same_bind (same_useK (.cons hc (.cons hs (.cons hv (.cons hb .nil)))) rfl) fun a b hab => ?_
      subst hab
      exact same_pure (.ok (.mk (.ptr hc) (.ptr hs) (.ptr hv) (.ptr hb)))
  · refine same_bind (same_useK (.cons hc (.cons hs (.cons hb .nil))) rfl) fun a b hab => ?_
    subst hab
    exact same_bind (same_freeId hc) fun _ _ _ => same_bind (same_freeId hb) fun _ _ _ => same_pure (.ok (.mk .null (.ptr hs) .null .null))

theorem same_sortByInwards {d e : Digraph} (ix : Bool) (hd : DigraphAlike T d e) : T.Same (ExcAlike (SortAlike T)) (sortByInwards d ix) (sortByInwards e ix) := by
  unfold sortByInwards
  rw [hd.n, hd.hbuf, hd.tbuf]
  refine same_bind same_alloc fun a b hc => same_bind same_alloc fun a b hs => ?_
  have hx : ∀ a b c d, PtrAlike T a b → PtrAlike T c d → T.Same (ExcAlike (SortAlike T)) (do freeSort ⟨a, c, none, none⟩; fail .noMemory "src/nng_findseeds.c" 587)
      (do freeSort ⟨b, d, none, none⟩; fail .noMemory "src/nng_findseeds.c" 587) := fun a b c d h1 h2 => same_bind (same_freeSort (.mk h1 h2 .null .null)) fun _ _ _ => same_fail
  cases hc with
  | null => cases hs with
    | null => exact hx _ _ _ _ .null .null
    | ptr hs => exact hx _ _ _ _ .null (.ptr hs)
  | @ptr ic jc bc hc => cases hs with
    | null => exact hx _ _ _ _ (.ptr hc) .null
    | @ptr is js bs hs =>
      refine same_bind (same_useK (.cons hc hd.ids) rfl) fun a b hab => ?_
      subst hab
      refine same_bind (same_useK (.cons hc .nil) rfl) fun a b hab => ?_
      subst hab
      refine same_bind same_alloc fun a b h1 => same_bind same_alloc fun a b h2 => ?_
      have hx : ∀ a b c d, PtrAlike T a b → PtrAlike T c d → T.Same (ExcAlike (SortAlike T)) (do freePtr (α := Nat) a; freeSort ⟨some ⟨ic, bc⟩, some ⟨is, bs⟩, none, c⟩; fail .noMemory "src/nng_findseeds.c" 608)
          (do freePtr (α := Nat) b; freeSort ⟨some ⟨jc, bc⟩, some ⟨js, bs⟩, none, d⟩; fail .noMemory "src/nng_findseeds.c" 608) := fun a b c d h1 h2 =>
        same_bind (same_freePtr h1) fun _ _ _ => same_bind (same_freeSort (.mk (.ptr hc) (.ptr hs) .null h2)) fun _ _ _ => same_fail
      cases h1 with
      | null => cases h2 with
        | null => exact hx _ _ _ _ .null .null
        | ptr h2 => exact hx _ _ _ _ .null (.ptr h2)
      | ptr h1 => cases h2 with
        | null => exact hx _ _ _ _ (.ptr h1) .null
        | ptr h2 =>
          refine same_bind (same_useK (.cons hc (.cons h1 (.cons h2 .nil))) rfl) fun a b hab => ?_
          subst hab
          exact same_bind (same_freeId h1) fun _ _ _ => same_finishSort _ _ (.mk hc) (.mk hs) (.mk h2)

/-! ### Inwards -/

/-- States of the search in an order. -/
abbrev InAlike (T : Twin) : Buf Bool × SeedResult × Queue → Buf Bool × SeedResult × Queue → Prop := PairAlike Eq (PairAlike (SeedAlike T) Eq)

theorem same_inwardsStep (cfg : Cfg) {d e : Digraph} {l l' : List Nat} (up : Bool) (hd : DigraphAlike T d e) (hl : IdsAlike T l l') (a b : Buf Bool × SeedResult × Queue) (p : Nat)
    (h : InAlike T a b) : T.Same (CtlAlike (InAlike T) (PairAlike Eq (SeedAlike T))) (inwardsStep cfg d l up a p) (inwardsStep cfg e l' up b p) := by
  obtain ⟨ma, s, q⟩ := a
  obtain ⟨mb, t, q'⟩ := b
  obtain ⟨he, h, hq⟩ := h
  dsimp only at he h hq
  subst he
  subst hq
  unfold inwardsStep
  dsimp only
  rw [hd.hbuf, hd.tbuf]
  refine same_bind (same_useK hl rfl) fun a b hab => ?_
  subst hab
  have hi := idsAlike_append hl hd.ids
  refine same_bind (same_useK hi rfl) fun a b hab => ?_
  subst hab
  refine same_ite Iff.rfl (fun _ => same_bind (same_addSeed cfg _ h) fun a b hab => ?_) fun _ => ?_
  · obtain ⟨e, s⟩ := a
    obtain ⟨e', t⟩ := b
    obtain ⟨he, h⟩ := hab
    dsimp only at he h ⊢
    subst he
    refine same_ite Iff.rfl (fun _ => same_pure (.stop ⟨rfl, h⟩)) fun _ => ?_
    refine same_bind (same_useK hi rfl) fun a b hab => ?_
    subst hab
    refine same_ite Iff.rfl (fun _ => same_bind (same_useK hi rfl) fun a b hab => ?_) fun _ => same_pure (.next ⟨rfl, h, rfl⟩)
    subst hab
    exact same_pure (.next ⟨rfl, h, rfl⟩)
  · refine same_ite Iff.rfl (fun _ => same_bind (same_useK hi rfl) fun a b hab => ?_) fun _ => same_pure (.next ⟨rfl, h, rfl⟩)
    subst hab
    exact same_pure (.next ⟨rfl, h, rfl⟩)

theorem same_findSeedsInwards (cfg : Cfg) {d e : Digraph} (up : Bool) (cap : Nat) (hd : DigraphAlike T d e) :
    T.Same (ExcAlike (SeedAlike T)) (findSeedsInwards cfg d up cap) (findSeedsInwards cfg e up cap) := by
  unfold findSeedsInwards
  refine same_bind (same_sortByInwards up hd) fun a b hab => ?_
  cases hab with
  | error => exact same_pure .error
  | @ok s t ho =>
    dsimp only
    rw [hd.n, ho.queue]
    refine same_bind same_alloc fun a b hm => same_bind same_alloc fun a b hs => ?_
    have hx : ∀ a b c d, PtrAlike T a b → PtrAlike T c d → T.Same (ExcAlike (SeedAlike T)) (do freeSort s; freePtr (α := Bool) a; freePtr (α := Nat) c; fail .noMemory "src/nng_findseeds.c" 245)
        (do freeSort t; freePtr b; freePtr d; fail .noMemory "src/nng_findseeds.c" 245) := fun a b c d h1 h2 =>
      same_bind (same_freeSort ho) fun _ _ _ => same_bind (same_freePtr h1) fun _ _ _ => same_bind (same_freePtr h2) fun _ _ _ => same_fail
    cases hm with
    | null => cases hs with
      | null => exact hx _ _ _ _ .null .null
      | ptr hs => exact hx _ _ _ _ .null (.ptr hs)
    | ptr hm => cases hs with
      | null => exact hx _ _ _ _ (.ptr hm) .null
      | ptr hs =>
        refine same_bind (same_foldBM (same_inwardsStep cfg up hd (.cons hm ho.ids)) _ ⟨rfl, .mk (.ptr hs), rfl⟩) fun a b hab => ?_
        cases hab with
        | next h => exact same_bind (same_freeSort ho) fun _ _ _ => same_bind (same_freeId hm) fun _ _ _ => same_pure (.ok h.2.1)
        | @stop a b h =>
          obtain ⟨e, s⟩ := a
          obtain ⟨e', t⟩ := b
          obtain ⟨he, h⟩ := h
          dsimp only at he h ⊢
          subst he
          exact same_bind (same_freeSort ho) fun _ _ _ => same_bind (same_freeId hm) fun _ _ _ => same_bind (same_freePtr h.seeds) fun _ _ _ => same_pure .error

/-! ### Exclusion -/

theorem same_exclusionGraph (cfg : Cfg) {d e : Digraph} (keep : Option (List Nat)) (hd : DigraphAlike T d e) :
    T.Same (ExcAlike (DigraphAlike T)) (exclusionGraph cfg d keep) (exclusionGraph cfg e keep) := by
  unfold exclusionGraph
  refine same_bind (same_digraphTranspose cfg hd) fun a b hab => ?_
  cases hab with
  | error => exact same_pure .error
  | ok ht =>
    refine same_bind (same_adjacencyProduct cfg _ hd ht) fun a b hp => same_bind (same_freeDigraph ht) fun _ _ _ => ?_
    cases hp with
    | error => exact same_pure .error
    | ok hp =>
      refine same_bind (same_unionAndDelete cfg keep false (.cons hd (.cons hp .nil))) fun a b hu => same_bind (same_freeDigraph hp) fun _ _ _ => ?_
      cases hu with
      | error => exact same_pure .error
      | ok hu => exact same_pure (.ok hu)

/-- States of the search with an exclusion graph. -/
abbrev ExAlike (T : Twin) : Buf Bool × Buf Nat × SeedResult × Queue → Buf Bool × Buf Nat × SeedResult × Queue → Prop := PairAlike Eq (PairAlike Eq (PairAlike (SeedAlike T) Eq))

theorem same_exclusionStep (cfg : Cfg) {l l' : List Nat} (tail : Buf Nat) (up : Bool) (hl : IdsAlike T l l') (a b : Buf Bool × Buf Nat × SeedResult × Queue) (p : Nat)
    (h : ExAlike T a b) : T.Same (CtlAlike (ExAlike T) (PairAlike Eq (SeedAlike T))) (exclusionStep cfg l tail up a p) (exclusionStep cfg l' tail up b p) := by
  obtain ⟨ma, ha, s, q⟩ := a
  obtain ⟨mb, hb, t, q'⟩ := b
  obtain ⟨he, hh, h, hq⟩ := h
  dsimp only at he hh h hq
  subst he
  subst hh
  subst hq
  unfold exclusionStep
  dsimp only
  refine same_bind (same_useK hl rfl) fun a b hab => ?_
  subst hab
  refine same_bind (same_useK hl rfl) fun a b hab => ?_
  subst hab
  refine same_ite Iff.rfl (fun _ => same_bind (same_addSeed cfg _ h) fun a b hab => ?_) fun _ => same_pure (.next ⟨rfl, rfl, h, rfl⟩)
  obtain ⟨e, s⟩ := a
  obtain ⟨e', t⟩ := b
  obtain ⟨he, h⟩ := hab
  dsimp only at he h ⊢
  subst he
  refine same_ite Iff.rfl (fun _ => same_pure (.stop ⟨rfl, h⟩)) fun _ => ?_
  refine same_bind (same_useK hl rfl) fun a b hab => ?_
  subst hab
  refine same_ite Iff.rfl (fun _ => same_bind (same_useK hl rfl) fun a b hab => ?_) fun _ => same_bind (same_useK hl rfl) fun a b hab => ?_
  · subst hab
    exact same_pure (.next ⟨rfl, rfl, h, rfl⟩)
  · subst hab
    exact same_pure (.next ⟨rfl, rfl, h, rfl⟩)

theorem same_exclusionMain (cfg : Cfg) {d e x y : Digraph} {m m' : Blk Bool} (up : Bool) (cap : Nat) (hd : DigraphAlike T d e) (hm : BlkAlike T m m') (hx : DigraphAlike T x y) :
    T.Same (ExcAlike (SeedAlike T)) (exclusionMain cfg d up cap m x) (exclusionMain cfg e up cap m' y) := by
  obtain ⟨hm⟩ := hm
  unfold exclusionMain
  refine same_bind (same_sortByInwards up hx) fun a b hab => ?_
  cases hab with
  | error => exact same_bind (same_freeId hm) fun _ _ _ => same_bind (same_freeDigraph hx) fun _ _ _ => same_pure .error
  | @ok s t ho =>
    dsimp only
    refine same_bind same_alloc fun a b hs => ?_
    cases hs with
    | null => exact same_bind (same_freeId hm) fun _ _ _ => same_bind (same_freeDigraph hx) fun _ _ _ => same_bind (same_freeSort ho) fun _ _ _ => same_fail
    | ptr hs =>
      dsimp only
      rw [hd.n, hx.hbuf, hx.tbuf, ho.queue]
      have hi := idsAlike_append hx.ids ho.ids
      rw [← List.append_assoc, ← List.append_assoc, ← List.append_assoc, ← List.append_assoc, ← List.append_assoc, ← List.append_assoc] at hi
      refine same_bind (same_foldBM (same_exclusionStep cfg _ up (.cons hm hi)) _ ⟨rfl, rfl, .mk (.ptr hs), rfl⟩) fun a b hab => ?_
      cases hab with
      | next h => exact same_bind (same_freeId hm) fun _ _ _ => same_bind (same_freeDigraph hx) fun _ _ _ => same_bind (same_freeSort ho) fun _ _ _ => same_pure (.ok h.2.2.1)
      | @stop a b h =>
        obtain ⟨e, s⟩ := a
        obtain ⟨e', t⟩ := b
        obtain ⟨he, h⟩ := h
        dsimp only at he h ⊢
        subst he
        exact same_bind (same_freeId hm) fun _ _ _ => same_bind (same_freeDigraph hx) fun _ _ _ => same_bind (same_freeSort ho) fun _ _ _ =>
          same_bind (same_freePtr h.seeds) fun _ _ _ => same_pure .error

theorem same_tailsToKeep (n : Nat) {p q : Option (Blk Nat)} (buf : Buf Nat) (k : Nat) (h : PtrAlike T p q) :
    T.Same (PairAlike Eq (PtrAlike T)) (tailsToKeep n p buf k) (tailsToKeep n q buf k) := by
  unfold tailsToKeep
  refine same_ite Iff.rfl (fun _ => same_bind (same_freePtr h) fun _ _ _ => same_pure ⟨rfl, .null⟩) fun _ => same_bind (same_useK h.ids rfl) fun a b hab => ?_
  subst hab
  exact same_pure ⟨rfl, h⟩

theorem same_noIndexArray {m m' : Blk Bool} {p q : Option (Blk Nat)} (hm : BlkAlike T m m') (h : PtrAlike T p q) : T.Same Eq (noIndexArray m p) (noIndexArray m' q) := by
  obtain ⟨hm⟩ := hm
  cases h with
  | null => exact same_bind (same_freeId hm) fun _ _ _ => same_bind same_mkErr fun _ _ _ => same_pure rfl
  | ptr h => exact same_pure rfl

theorem same_findSeedsExclusion (cfg : Cfg) {d e : Digraph} (up : Bool) (cap : Nat) (hd : DigraphAlike T d e) :
    T.Same (ExcAlike (SeedAlike T)) (findSeedsExclusion cfg d up cap) (findSeedsExclusion cfg e up cap) := by
  unfold findSeedsExclusion
  rw [hd.n, hd.tbuf]
  refine same_bind same_alloc fun a b hm => ?_
  cases hm with
  | null => exact same_fail
  | ptr hm =>
    dsimp only
    refine same_bind same_alloc fun p q hp => same_bind (same_noIndexArray (.mk hm) hp) fun _ _ _ => ?_
    refine same_bind (same_useK (idsAlike_append (.cons hm hp.ids) hd.ids) (by rw [hp.buf])) fun a b hab => ?_
    subst hab
    refine same_bind (same_tailsToKeep _ _ _ hp) fun a b hab => ?_
    obtain ⟨k, p⟩ := a
    obtain ⟨k', q⟩ := b
    obtain ⟨hk, hp⟩ := hab
    dsimp only at hk hp ⊢
    subst hk
    refine same_bind (same_exclusionGraph cfg _ hd) fun a b hx => ?_
    cases hx with
    | error => exact same_bind (same_freeId hm) fun _ _ _ => same_pure .error
    | ok hx => exact same_bind (same_freePtr hp) fun _ _ _ => same_exclusionMain cfg up cap hd (.mk hm) hx

/-! ### Entry point -/

theorem same_shrinkSeeds {s t : SeedResult} (h : SeedAlike T s t) : T.Same (SeedAlike T) (shrinkSeeds s) (shrinkSeeds t) := by
  cases h with
  | mk h =>
    unfold shrinkSeeds
    refine same_ite Iff.rfl (fun _ => same_bind (same_reallocHead _ h) fun a b hab => ?_) fun _ => same_pure (.mk h)
    cases hab with
    | null => exact same_pure (.mk h)
    | ptr h => exact same_pure (.mk (.ptr h))

theorem same_findSeeds (cfg : Cfg) {d e : Digraph} (method : SeedMethod) (cap : Nat) (hd : DigraphAlike T d e) :
    T.Same (ExcAlike (SeedAlike T)) (findSeeds cfg d method cap) (findSeeds cfg e method cap) := by
  unfold findSeeds
  refine same_bind (Q := ExcAlike (SeedAlike T)) ?_ fun a b hab => ?_
  · cases method
    · exact same_findSeedsLexical cfg cap hd
    · exact same_findSeedsInwards cfg _ cap hd
    · exact same_findSeedsInwards cfg _ cap hd
    · exact same_findSeedsExclusion cfg _ cap hd
    · exact same_findSeedsExclusion cfg _ cap hd
  · cases hab with
    | error => exact same_pure .error
    | ok h => exact same_bind (same_shrinkSeeds h) fun _ _ h => same_pure (.ok h)

end Scc
