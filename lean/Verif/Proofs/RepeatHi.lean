/-
Calls that are made again in another state of the process do the same: hierarchical clustering.
-/
import Verif.Proofs.RepeatApi

namespace Scc

variable {T : Twin} {α β γ δ : Type} {F : Type} {s t : Spi F} [FloatOps F]

/-- Blocks used to break clusters. -/
inductive HiIdsAlike (T : Twin) : HiIds → HiIds → Prop
  | mk {a a' b b' c c' d d' e e' f f' g g' : Nat} (ha : T.Names a a') (hb : T.Names b b') (hc : T.Names c c') (hd : T.Names d d') (he : T.Names e e') (hf : T.Names f f') (hg : T.Names g g') :
    HiIdsAlike T ⟨a, b, c, d, e, f, g⟩ ⟨a', b', c', d', e', f', g'⟩

theorem HiIdsAlike.all {i j : HiIds} (h : HiIdsAlike T i j) : IdsAlike T i.all j.all := by
  obtain ⟨ha, hb, hc, hd, he, hf, hg⟩ := h
  exact .cons ha (.cons hb (.cons hc (.cons hd (.cons he (.cons hf (.cons hg .nil))))))

theorem HiIdsAlike.store {i j : HiIds} (h : HiIdsAlike T i j) : T.Names i.store j.store := by obtain ⟨ha, hb, hc, hd, he, hf, hg⟩ := h; exact ha
theorem HiIdsAlike.idx1 {i j : HiIds} (h : HiIdsAlike T i j) : T.Names i.idx1 j.idx1 := by obtain ⟨ha, hb, hc, hd, he, hf, hg⟩ := h; exact hb
theorem HiIdsAlike.idx2 {i j : HiIds} (h : HiIdsAlike T i j) : T.Names i.idx2 j.idx2 := by obtain ⟨ha, hb, hc, hd, he, hf, hg⟩ := h; exact hc
theorem HiIdsAlike.dists {i j : HiIds} (h : HiIdsAlike T i j) : T.Names i.dists j.dists := by obtain ⟨ha, hb, hc, hd, he, hf, hg⟩ := h; exact hd

theorem same_centerLoop (hs : SpiAlike T s t) {ids ids' : HiIds} {o : s.MD} {o' : t.MD} (marker : Nat) (hi : HiIdsAlike T ids ids') (ho : hs.md o o') (fuel : Nat) (st : CenterSt F) (a : Buf Nat) (b : Buf F) :
    T.Same (ExcAlike Eq) (centerLoop s ids o marker fuel st a b) (centerLoop t ids' o' marker fuel st a b) := by
  induction fuel generalizing st a b with
  | zero => exact same_none
  | succ fuel ih =>
    unfold centerLoop
    refine same_ite Iff.rfl (fun _ => same_pure (.ok rfl)) fun _ => same_bind (same_touch (.cons hi.idx2 (.cons hi.dists .nil))) fun _ _ _ => ?_
    refine same_bind (hs.maxDist _ _ _ _ _ _ _ ho (.arr (.cons hi.idx1 .nil))) fun x y hxy => ?_
    subst hxy
    cases x with
    | none => exact same_bind (hs.maxClose _ _ ho) fun _ _ _ => same_fail
    | some r =>
      refine same_bind (same_useK hi.all rfl) fun x y hxy => ?_
      subst hxy
      exact ih _ _ _

theorem same_findCenters (cfg : Cfg) (hs : SpiAlike T s t) {ids ids' : HiIds} (c : HiItem) (b : HiBufs F) (hi : HiIdsAlike T ids ids') :
    T.Same (ExcAlike Eq) (findCenters cfg s ids c b) (findCenters cfg t ids' c b) := by
  unfold findCenters
  refine same_bind (same_useK hi.all rfl) fun x y hxy => ?_
  subst hxy
  refine same_bind (hs.maxInit _ _ _ (.arr (.cons hi.store .nil))) fun x y hxy => ?_
  cases hxy with
  | none => exact same_fail
  | some ho =>
    refine same_bind (same_centerLoop hs _ hi ho _ _ _ _) fun x y hxy => ?_
    cases hxy with
    | error => exact same_pure .error
    | ok h =>
      subst h
      refine same_bind (hs.maxClose _ _ ho) fun x y hxy => ?_
      subst hxy
      exact same_ite Iff.rfl (fun _ => same_pure (.ok rfl)) fun _ => same_fail

theorem same_breakCluster (cfg : Cfg) (hi : HiEnv F) (hs : SpiAlike T s t) {ids ids' : HiIds} (S : Nat) (batch : Bool) (c : HiItem) (b : HiBufs F) (h : HiIdsAlike T ids ids') :
    T.Same (ExcAlike Eq) (breakCluster cfg hi s ids S batch c b) (breakCluster cfg hi t ids' S batch c b) := by
  unfold breakCluster
  refine same_bind (same_findCenters cfg hs c b h) fun x y hxy => ?_
  cases hxy with
  | error => exact same_pure .error
  | ok hxy =>
    subst hxy
    refine same_bind (same_useK .nil rfl) fun x y hxy => ?_
    subst hxy
    refine same_bind (same_touch (.cons h.dists .nil)) fun _ _ _ => same_bind (hs.distRows _ _ _ _ _ _ _ (.arr .nil) (.arr (.cons h.store .nil))) fun x y hxy => ?_
    subst hxy
    cases x with
    | none => exact same_fail
    | some d =>
      refine same_bind (same_useK h.all rfl) fun x y hxy => ?_
      subst hxy
      exact same_pure (.ok rfl)

/-- Stacks of clusters. -/
inductive StackAlike (T : Twin) : HiStack → HiStack → Prop
  | mk {c k i j : Nat} {b : Buf HiItem} (h : T.Names i j) : StackAlike T ⟨c, k, ⟨i, b⟩⟩ ⟨c, k, ⟨j, b⟩⟩

theorem same_checkCapacity (cfg : Cfg) {a b : HiStack} (h : StackAlike T a b) : T.Same (ExcAlike (StackAlike T)) (checkCapacity cfg a) (checkCapacity cfg b) := by
  obtain ⟨h⟩ := h
  unfold checkCapacity
  refine same_ite Iff.rfl (fun _ => same_ite Iff.rfl (fun _ => same_fail) fun _ => same_bind (same_realloc (.mk h)) fun x y hxy => ?_) fun _ => same_pure (.ok (.mk h))
  cases hxy with
  | null => exact same_fail
  | ptr h => exact same_pure (.ok (.mk h))

/-- States of the main loop. -/
inductive HiRunAlike (T : Twin) : HiRun F → HiRun F → Prop
  | mk {a b : HiStack} {u : HiBufs F} {l : Buf Int} {k : Nat} (h : StackAlike T a b) : HiRunAlike T ⟨a, u, l, k⟩ ⟨b, u, l, k⟩

theorem same_hiStep (cfg : Cfg) (hi : HiEnv F) (hs : SpiAlike T s t) {ids ids' : HiIds} {l l' : List Nat} (S : Nat) (batch : Bool) {a b : HiRun F} (h : HiIdsAlike T ids ids') (hl : IdsAlike T l l')
    (hab : HiRunAlike T a b) : T.Same (PairAlike Eq (HiRunAlike T)) (hiStep cfg hi s ids l S batch a) (hiStep cfg hi t ids' l' S batch b) := by
  obtain ⟨hk⟩ := hab
  unfold hiStep
  refine same_bind (same_checkCapacity cfg hk) fun x y hxy => ?_
  cases hxy with
  | error => exact same_pure ⟨rfl, .mk hk⟩
  | ok hst =>
    obtain ⟨hst⟩ := hst
    refine same_bind (same_useK (.cons hst .nil) rfl) fun x y hxy => ?_
    subst hxy
    refine same_ite Iff.rfl (fun _ => same_ite Iff.rfl (fun _ => same_ite Iff.rfl (fun _ => same_bind same_mkErr fun _ _ he => same_pure ⟨congrArg some he, .mk (.mk hst)⟩) fun _ => ?_) fun _ => ?_) fun _ => ?_
    · refine same_bind (same_useK (.cons h.store hl) rfl) fun x y hxy => ?_
      subst hxy
      exact same_pure ⟨rfl, .mk (.mk hst)⟩
    · exact same_pure ⟨rfl, .mk (.mk hst)⟩
    · refine same_bind (same_breakCluster cfg hi hs _ _ _ _ h) fun x y hxy => ?_
      cases hxy with
      | error => exact same_pure ⟨rfl, .mk (.mk hst)⟩
      | ok hxy =>
        subst hxy
        refine same_bind (same_useK (.cons hst .nil) rfl) fun x y hxy => ?_
        subst hxy
        exact same_pure ⟨rfl, .mk (.mk hst)⟩

theorem same_hiLoop (cfg : Cfg) (hi : HiEnv F) (hs : SpiAlike T s t) {ids ids' : HiIds} {l l' : List Nat} (S : Nat) (batch : Bool) (fuel : Nat) {a b : HiRun F} (h : HiIdsAlike T ids ids')
    (hl : IdsAlike T l l') (hab : HiRunAlike T a b) : T.Same (PairAlike Eq (HiRunAlike T)) (hiLoop cfg hi s ids l S batch fuel a) (hiLoop cfg hi t ids' l' S batch fuel b) := by
  induction fuel generalizing a b with
  | zero => exact same_none
  | succ fuel ih =>
    unfold hiLoop
    refine same_ite (by obtain ⟨⟨_⟩⟩ := hab; rfl) (fun _ => same_pure ⟨rfl, hab⟩) fun _ => same_bind (same_hiStep cfg hi hs S batch h hl hab) fun x y hxy => ?_
    obtain ⟨e, x⟩ := x
    obtain ⟨e', y⟩ := y
    obtain ⟨he, hxy⟩ := hxy
    dsimp only at he hxy
    subst he
    cases e with
    | none => exact ih hxy
    | some e => exact same_pure ⟨rfl, hxy⟩

/-- A stack, its store and the size of the largest cluster. -/
abbrev MadeAlike (T : Twin) : HiStack × Blk Nat × Nat → HiStack × Blk Nat × Nat → Prop := PairAlike (StackAlike T) (PairAlike (BlkAlike T) Eq)

theorem same_hiStackFail {a b : Option (Blk HiItem)} {c d : Option (Blk Nat)} (line : Nat) (h1 : PtrAlike T a b) (h2 : PtrAlike T c d) :
    T.Same (ExcAlike (MadeAlike T)) (hiStackFail a c line) (hiStackFail b d line) :=
  same_bind (same_freePtr h1) fun _ _ _ => same_bind (same_freePtr h2) fun _ _ _ => same_fail

omit [FloatOps F] in
theorem same_emptyStack (hi : HiEnv F) (n : Nat) : T.Same (ExcAlike (MadeAlike T)) (emptyStack hi n) (emptyStack hi n) := by
  unfold emptyStack
  refine same_bind same_alloc fun _ _ h1 => same_bind same_alloc fun _ _ h2 => ?_
  cases h1 with
  | null => cases h2 with
    | null => exact same_hiStackFail _ .null .null
    | ptr h2 => exact same_hiStackFail _ .null (.ptr h2)
  | ptr h1 => cases h2 with
    | null => exact same_hiStackFail _ (.ptr h1) .null
    | ptr h2 =>
      refine same_bind (same_useK (.cons h2 .nil) rfl) fun x y hxy => ?_
      subst hxy
      refine same_bind (same_useK (.cons h1 .nil) rfl) fun x y hxy => ?_
      subst hxy
      exact same_pure (.ok ⟨.mk h1, .mk h2, rfl⟩)

omit [FloatOps F] in
theorem same_initStack (cfg : Cfg) (hi : HiEnv F) (n k : Nat) {l l' : List Nat} (lb : Buf Int) (hl : IdsAlike T l l') :
    T.Same (ExcAlike (MadeAlike T)) (initStack cfg hi n k l lb) (initStack cfg hi n k l' lb) := by
  unfold initStack
  refine same_ite Iff.rfl (fun _ => same_fail) fun _ => same_bind same_alloc fun _ _ h1 => same_bind same_alloc fun _ _ h2 => ?_
  cases h1 with
  | null => cases h2 with
    | null => exact same_hiStackFail _ .null .null
    | ptr h2 => exact same_hiStackFail _ .null (.ptr h2)
  | ptr h1 => cases h2 with
    | null => exact same_hiStackFail _ (.ptr h1) .null
    | ptr h2 =>
      refine same_bind (same_useK (.cons h1 (.cons h2 hl)) rfl) fun x y hxy => ?_
      subst hxy
      exact same_pure (.ok ⟨.mk h1, .mk h2, rfl⟩)

omit [FloatOps F] in
theorem same_makeStack (cfg : Cfg) (hi : HiEnv F) {c c' : Clustering} (hc : ClusteringAlike T c c') : T.Same (ExcAlike (MadeAlike T)) (makeStack cfg hi c) (makeStack cfg hi c') := by
  obtain ⟨hl⟩ := hc
  unfold makeStack
  exact same_ite Iff.rfl (fun _ => same_emptyStack hi _) fun _ => hl.buf ▸ same_initStack cfg hi _ _ _ hl.ids

theorem same_hiWork (cfg : Cfg) (hi : HiEnv F) (hs : SpiAlike T s t) (S : Nat) (batch : Bool) {c c' : Clustering} {a a' : HiStack} {b b' : Blk Nat} {i i' j j' m m' : Option (Blk Nat)} {d d' : Option (Blk F)}
    {e e' f f' : Option (Blk (Nat × F))} (hc : ClusteringAlike T c c') (ha : StackAlike T a a') (hb : BlkAlike T b b') (h1 : PtrAlike T i i') (h2 : PtrAlike T j j') (h3 : PtrAlike T d d') (h4 : PtrAlike T m m')
    (h5 : PtrAlike T e e') (h6 : PtrAlike T f f') :
    T.Same (PairAlike Eq (PairAlike (ClusteringAlike T) (BlkAlike T))) (hiWork cfg hi s S batch c a b i j d m e f) (hiWork cfg hi t S batch c' a' b' i' j' d' m' e' f') := by
  have hx : T.Same (PairAlike Eq (PairAlike (ClusteringAlike T) (BlkAlike T))) (do let e ← mkErr .noMemory "src/hierarchical_clustering.c" 240; pure (e, c, a.clusters))
      (do let e ← mkErr .noMemory "src/hierarchical_clustering.c" 240; pure (e, c', a'.clusters)) := by
    refine same_bind same_mkErr fun _ _ he => same_pure ⟨he, hc, ?_⟩
    obtain ⟨h⟩ := ha
    exact .mk h
  cases h1 with
  | null => cases h2 <;> cases h3 <;> cases h4 <;> cases h5 <;> cases h6 <;> exact hx
  | ptr h1 => cases h2 with
    | null => cases h3 <;> cases h4 <;> cases h5 <;> cases h6 <;> exact hx
    | ptr h2 => cases h3 with
      | null => cases h4 <;> cases h5 <;> cases h6 <;> exact hx
      | ptr h3 => cases h4 with
        | null => cases h5 <;> cases h6 <;> exact hx
        | ptr h4 => cases h5 with
          | null => cases h6 <;> exact hx
          | ptr h5 => cases h6 with
            | null => exact hx
            | ptr h6 =>
              obtain ⟨hb⟩ := hb
              obtain ⟨hl⟩ := hc
              have hm : a.items = a'.items := by obtain ⟨_⟩ := ha; rfl
              unfold hiWork
              dsimp only
              rw [hm, hl.buf]
              refine same_bind (same_hiLoop cfg hi hs S batch _ (.mk hb h1 h2 h3 h4 h5 h6) hl.ids (.mk ha)) fun x y hxy => ?_
              obtain ⟨e, x⟩ := x
              obtain ⟨e', y⟩ := y
              obtain ⟨he, hxy⟩ := hxy
              dsimp only at he hxy ⊢
              subst he
              obtain ⟨⟨hxy⟩⟩ := hxy
              exact same_pure ⟨rfl, .mk (hl.set _), .mk hxy⟩

theorem same_hiMain (cfg : Cfg) (hi : HiEnv F) (hs : SpiAlike T s t) (S : Nat) (batch : Bool) {c c' : Clustering} {a a' : HiStack} {b b' : Blk Nat} (m : Nat) (hc : ClusteringAlike T c c')
    (ha : StackAlike T a a') (hb : BlkAlike T b b') : T.Same (PairAlike Eq (ClusteringAlike T)) (hiMain cfg hi s S batch c a b m) (hiMain cfg hi t S batch c' a' b' m) := by
  unfold hiMain
  rw [hc.n]
  refine same_bind same_alloc fun _ _ h1 => same_bind same_alloc fun _ _ h2 => same_bind same_alloc fun _ _ h3 => same_bind same_alloc fun _ _ h4 => same_bind same_alloc fun _ _ h5 =>
    same_bind same_alloc fun _ _ h6 => same_bind (same_hiWork cfg hi hs S batch hc ha hb h1 h2 h3 h4 h5 h6) fun x y hxy => ?_
  refine same_bind (same_freePtr h1) fun _ _ _ => same_bind (same_freePtr h2) fun _ _ _ => same_bind (same_freePtr h3) fun _ _ _ => same_bind (same_freePtr h4) fun _ _ _ =>
    same_bind (same_freePtr h5) fun _ _ _ => same_bind (same_freePtr h6) fun _ _ _ => ?_
  obtain ⟨e, x, u⟩ := x
  obtain ⟨e', y, v⟩ := y
  obtain ⟨he, hxy, hu⟩ := hxy
  dsimp only at he hxy hu ⊢
  obtain ⟨hu⟩ := hu
  obtain ⟨hb⟩ := hb
  exact same_bind (same_freeId hu) fun _ _ _ => same_bind (same_freeId hb) fun _ _ _ => same_pure ⟨he, hxy⟩

theorem same_hiLabels {c c' : Clustering} (hc : ClusteringAlike T c c') : T.Same (PairAlike Eq (ClusteringAlike T)) (hiLabels c) (hiLabels c') := by
  unfold hiLabels
  exact same_ite (by obtain ⟨_⟩ := hc; rfl) (fun _ => same_ensureLabels hc) fun _ => same_pure ⟨rfl, hc⟩

theorem same_hiCluster (cfg : Cfg) (hi : HiEnv F) (hs : SpiAlike T s t) (S : Nat) (batch : Bool) {c c' : Clustering} (hc : ClusteringAlike T c c') :
    T.Same (PairAlike Eq (ClusteringAlike T)) (hiCluster cfg hi s S batch c) (hiCluster cfg hi t S batch c') := by
  unfold hiCluster
  refine same_bind (same_hiLabels hc) fun x y hxy => ?_
  obtain ⟨k, x⟩ := x
  obtain ⟨k', y⟩ := y
  obtain ⟨hk, hc⟩ := hxy
  dsimp only at hk hc ⊢
  subst hk
  refine same_ite Iff.rfl (fun _ => same_bind same_mkErr fun _ _ he => same_pure ⟨he, hc⟩) fun _ => same_bind (same_makeStack cfg hi hc) fun x y hxy => ?_
  cases hxy with
  | error => exact same_pure ⟨rfl, hc⟩
  | @ok x y h =>
    obtain ⟨a, b, m⟩ := x
    obtain ⟨a', b', m'⟩ := y
    obtain ⟨h1, h2, h3⟩ := h
    dsimp only at h1 h2 h3 ⊢
    subst h3
    exact same_hiMain cfg hi hs S batch _ hc h1 h2

theorem same_hierarchical (cfg : Cfg) (hi : HiEnv F) (hs : SpiAlike T s t) (S : Nat) (batch : Bool) {p q : Option ClObj} (h : ObjAlike T p q) :
    T.Same (PairAlike Eq (ObjAlike T)) (hierarchical cfg hi s S batch p) (hierarchical cfg hi t S batch q) := by
  unfold hierarchical
  refine same_bind (same_isInitialized cfg h) fun a b hab => ?_
  subst hab
  cases h with
  | none => cases a <;> exact same_bind same_mkErr fun _ _ he => same_pure ⟨he, .none⟩
  | some h =>
    cases a with
    | false => exact same_bind same_mkErr fun _ _ he => same_pure ⟨he, .some h⟩
    | true =>
      obtain ⟨hid, hc⟩ := h
      have he : ∀ {c c' : Clustering}, ClusteringAlike T c c' → hiArgsError s c S = hiArgsError t c' S := by
        intro c c' hc
        obtain ⟨hl⟩ := hc
        unfold hiArgsError
        rw [hs.valid, hs.numPoints]
      dsimp only
      rw [he hc]
      cases hiArgsError t _ S with
      | some e => exact same_bind same_mkErr fun _ _ he => same_pure ⟨he, .some (.mk hid hc)⟩
      | none => exact same_bind (same_hiCluster cfg hi hs S batch hc) fun _ _ h => same_bind (same_touch (.cons hid .nil)) fun _ _ _ => same_pure ⟨h.1, .some (.mk hid h.2)⟩

end Scc
