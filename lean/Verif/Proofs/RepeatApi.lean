/-
Calls that are made again in another state of the process do the same: clustering in batches, the clustering call, checks, clustering objects and the built-in distance functions.
-/
import Verif.Proofs.RepeatCore

namespace Scc

variable {T : Twin} {α β γ δ : Type} {F : Type} {s t : Spi F} [FloatOps F]

/-! ### Batches -/

/-- Blocks used by the loop over batches. -/
inductive BatchIdsAlike (T : Twin) : BatchIds → BatchIds → Prop
  | mk {a a' b b' c c' : Nat} {d d' e e' : List Nat} (ha : T.Names a a') (hb : T.Names b b') (hc : T.Names c c') (hd : IdsAlike T d d') (he : IdsAlike T e e') :
    BatchIdsAlike T ⟨a, b, c, d, e⟩ ⟨a', b', c', d', e'⟩

omit [FloatOps F] in
theorem same_batchLoop (cfg : Cfg) (hs : SpiAlike T s t) {o : s.NN} {o' : t.NN} {ids ids' : BatchIds} (n S : Nat) (ig rs : Bool) (r : F) (primary : Option (Buf Bool)) (bs : Nat) (ho : hs.nn o o')
    (hi : BatchIdsAlike T ids ids') (fuel cur : Nat) (x : RunSt) :
    T.Same Eq (batchLoop cfg s o ids n S ig rs r primary bs fuel cur x) (batchLoop cfg t o' ids' n S ig rs r primary bs fuel cur x) := by
  obtain ⟨ha, hb, hc, hd, he⟩ := hi
  induction fuel generalizing cur x with
  | zero =>
    unfold batchLoop
    exact same_ite Iff.rfl (fun _ => same_useK .nil rfl) fun _ => same_pure rfl
  | succ fuel ih =>
    unfold batchLoop
    refine same_ite Iff.rfl (fun _ => ?_) fun _ => same_pure rfl
    refine same_bind (same_useK (idsAlike_append (.cons ha (.cons hc hd)) he) rfl) fun a b hab => ?_
    subst hab
    refine same_ite Iff.rfl (fun _ => same_pure rfl) fun _ => same_bind (same_touch (.cons ha (.cons hb .nil))) fun _ _ _ => ?_
    refine same_bind (hs.nnSearch _ _ _ _ _ _ _ _ _ _ ho (.arr (.cons ha .nil))) fun a b hab => ?_
    subst hab
    cases a with
    | none => exact same_bind same_mkErr fun _ _ he => same_pure (by rw [he])
    | some res =>
      refine same_bind (same_useK (.cons hb .nil) rfl) fun a b hab => ?_
      subst hab
      refine same_bind (same_useK (.cons ha (.cons hb (.cons hc he))) rfl) fun a b hab => ?_
      subst hab
      cases a with
      | stop st => exact same_bind same_mkErr fun _ _ he => same_pure (by rw [he])
      | next st => exact ih _ _

omit [FloatOps F] in
theorem same_runBatches (cfg : Cfg) (hs : SpiAlike T s t) {o : s.NN} {o' : t.NN} {ids ids' : BatchIds} (n S : Nat) (ig rs : Bool) (r : F) (primary : Option (Buf Bool)) (bs : Nat) (batch out : Buf Nat)
    (as : Buf Bool) (lb : Buf Int) (ho : hs.nn o o') (hi : BatchIdsAlike T ids ids') :
    T.Same Eq (runBatches cfg s o ids n S ig rs r primary bs batch out as lb) (runBatches cfg t o' ids' n S ig rs r primary bs batch out as lb) := by
  unfold runBatches
  refine same_bind (same_batchLoop cfg hs n S ig rs r primary bs ho hi _ _ _) fun a b hab => ?_
  subst hab
  refine same_ite Iff.rfl (fun _ => same_pure rfl) fun _ => same_ite Iff.rfl (fun _ => ?_) fun _ => same_pure rfl
  exact same_ite Iff.rfl (fun _ => same_bind same_mkErr fun _ _ he => same_pure (by rw [he])) fun _ => same_bind same_mkErr fun _ _ he => same_pure (by rw [he])

theorem same_initPrimary (n len : Nat) (p : Option (Buf Nat)) : T.Same (PtrAlike T) (initPrimary n len p) (initPrimary n len p) := by
  cases p with
  | none => exact same_pure .null
  | some p =>
    refine same_bind same_alloc fun a b h => same_bind (same_useK h.ids (by rw [h.buf])) fun c d hcd => ?_
    subst hcd
    exact same_pure (h.set _)

theorem same_ensureLabels {c c' : Clustering} (hc : ClusteringAlike T c c') : T.Same (PairAlike Eq (ClusteringAlike T)) (ensureLabels c) (ensureLabels c') := by
  obtain ⟨hl⟩ := hc
  unfold ensureLabels
  cases hl with
  | ptr h => exact same_pure ⟨rfl, .mk (.ptr h)⟩
  | null =>
    refine same_bind same_alloc fun a b hab => ?_
    cases hab with
    | null => exact same_pure ⟨rfl, .mk .null⟩
    | ptr h => exact same_pure ⟨rfl, .mk (.ptr h)⟩

theorem batchArgsError_congr (hs : SpiAlike T s t) {c c' : Clustering} (S : Nat) (um : UnassignedMethod) (rs : Bool) (r : F) (len : Nat) (p : Option (Buf Nat)) (hc : ClusteringAlike T c c') :
    batchArgsError s c S um rs r len p = batchArgsError t c' S um rs r len p := by
  obtain ⟨hl⟩ := hc
  unfold batchArgsError
  rw [hs.valid, hs.numPoints]

theorem PtrAlike.bufs {p q : Option (Blk α)} (h : PtrAlike T p q) : p.map Blk.buf = q.map Blk.buf := by cases h <;> rfl

omit [FloatOps F] in
theorem same_batchesMain (cfg : Cfg) (hs : SpiAlike T s t) {o : s.NN} {o' : t.NN} {c c' : Clustering} (S : Nat) (um : UnassignedMethod) (rs : Bool) (r : F) (len : Nat) (p : Option (Buf Nat)) (bs : Nat)
    {b b' u u' : Blk Nat} {a a' : Blk Bool} (ho : hs.nn o o') (hc : ClusteringAlike T c c') (hb : BlkAlike T b b') (hu : BlkAlike T u u') (ha : BlkAlike T a a') :
    T.Same (PairAlike Eq (ClusteringAlike T)) (batchesMain cfg s o c S um rs r len p bs b u a) (batchesMain cfg t o' c' S um rs r len p bs b' u' a') := by
  obtain ⟨hb⟩ := hb
  obtain ⟨hu⟩ := hu
  obtain ⟨ha⟩ := ha
  unfold batchesMain
  refine same_bind (same_ensureLabels hc) fun x y hxy => ?_
  obtain ⟨k, c⟩ := x
  obtain ⟨k', c'⟩ := y
  obtain ⟨hk, hc⟩ := hxy
  dsimp only at hk hc ⊢
  subst hk
  refine same_ite Iff.rfl (fun _ => ?_) fun _ => ?_
  · exact same_free3 hb hu ha (same_bind (hs.nnClose _ _ ho) fun _ _ _ => same_bind same_mkErr fun _ _ he => same_pure ⟨he, hc⟩)
  · obtain ⟨hl⟩ := hc
    refine same_bind (same_initPrimary _ _ _) fun x y hp => ?_
    dsimp only
    rw [hl.buf, hp.bufs]
    refine same_bind (same_runBatches cfg hs _ _ _ _ _ _ _ _ _ _ _ ho (.mk hb hu ha hp.ids hl.ids)) fun x y hxy => ?_
    subst hxy
    exact same_free3 hb hu ha (same_bind (same_freePtr hp) fun _ _ _ => same_bind (hs.nnClose _ _ ho) fun _ _ _ => same_pure ⟨rfl, .mk (hl.set _)⟩)

theorem same_clusterBatches (cfg : Cfg) (hs : SpiAlike T s t) {c c' : Clustering} (S : Nat) (um : UnassignedMethod) (rs : Bool) (r : F) (len : Nat) (p : Option (Buf Nat)) (bs : Nat)
    (hc : ClusteringAlike T c c') : T.Same (PairAlike Eq (ClusteringAlike T)) (clusterBatches cfg s c S um rs r len p bs) (clusterBatches cfg t c' S um rs r len p bs) := by
  unfold clusterBatches
  rw [batchArgsError_congr hs S um rs r len p hc]
  cases batchArgsError t c' S um rs r len p with
  | some e => exact same_bind same_mkErr fun _ _ he => same_pure ⟨he, hc⟩
  | none =>
    dsimp only
    rw [hc.n]
    refine same_bind (hs.nnInit _ _ _ .null) fun a b hab => ?_
    cases hab with
    | none => exact same_bind same_mkErr fun _ _ he => same_pure ⟨he, hc⟩
    | @some o o' ho =>
      refine same_bind same_alloc fun a b h1 => same_bind same_alloc fun a b h2 => same_bind same_alloc fun a b h3 => ?_
      have hx : ∀ a b x y e f, PtrAlike T a b → PtrAlike T x y → PtrAlike T e f → T.Same (PairAlike Eq (ClusteringAlike T))
          (do freePtr (α := Nat) a; freePtr (α := Nat) x; freePtr (α := Bool) e; let _ ← s.nnClose o; let e ← mkErr .noMemory "src/nng_batch_clustering.c" 125; pure (e, c))
          (do freePtr (α := Nat) b; freePtr (α := Nat) y; freePtr (α := Bool) f; let _ ← t.nnClose o'; let e ← mkErr .noMemory "src/nng_batch_clustering.c" 125; pure (e, c')) := fun a b x y e f h1 h2 h3 =>
        same_bind (same_freePtr h1) fun _ _ _ => same_bind (same_freePtr h2) fun _ _ _ => same_bind (same_freePtr h3) fun _ _ _ => same_bind (hs.nnClose _ _ ho) fun _ _ _ =>
          same_bind same_mkErr fun _ _ he => same_pure ⟨he, hc⟩
      cases h1 with
      | null => cases h2 with
        | null => cases h3 with
          | null => exact hx _ _ _ _ _ _ .null .null .null
          | ptr h3 => exact hx _ _ _ _ _ _ .null .null (.ptr h3)
        | ptr h2 => cases h3 with
          | null => exact hx _ _ _ _ _ _ .null (.ptr h2) .null
          | ptr h3 => exact hx _ _ _ _ _ _ .null (.ptr h2) (.ptr h3)
      | ptr h1 => cases h2 with
        | null => cases h3 with
          | null => exact hx _ _ _ _ _ _ (.ptr h1) .null .null
          | ptr h3 => exact hx _ _ _ _ _ _ (.ptr h1) .null (.ptr h3)
        | ptr h2 => cases h3 with
          | null => exact hx _ _ _ _ _ _ (.ptr h1) (.ptr h2) .null
          | ptr h3 => exact same_batchesMain cfg hs _ _ _ _ _ _ _ ho hc (.mk h1) (.mk h2) (.mk h3)

/-! ### The clustering call -/

theorem same_estimateRadii (hs : SpiAlike T s t) {sr sr' : SeedResult} {d d' : Digraph} (S : Nat) (r1 r2 : RadiusMethod × F) (hr : SeedAlike T sr sr') (hd : DigraphAlike T d d') :
    T.Same (ExcAlike Eq) (estimateRadii s sr d S r1 r2) (estimateRadii t sr' d' S r1 r2) := by
  unfold estimateRadii
  refine same_ite Iff.rfl (fun _ => same_bind (same_estimateAvg hs _ hr hd) fun a b hab => ?_) fun _ => same_pure (.ok rfl)
  cases hab with
  | error => exact same_bind (same_freePtr hr.seeds) fun _ _ _ => same_pure .error
  | @ok x y h =>
    subst h
    dsimp only
    cases useEstimate x r1 with
    | none => exact same_bind (same_freePtr hr.seeds) fun _ _ _ => same_fail
    | some r1 =>
      dsimp only
      cases useEstimate x r2 with
      | none => exact same_bind (same_freePtr hr.seeds) fun _ _ _ => same_fail
      | some r2 => exact same_pure (.ok rfl)

theorem same_clusteringFromNng (cfg : Cfg) (hs : SpiAlike T s t) {c c' : Clustering} {d d' : Digraph} (o : Options F) (m : SeedMethod) (hc : ClusteringAlike T c c') (hd : DigraphAlike T d d') :
    T.Same (PairAlike Eq (PairAlike (ClusteringAlike T) (DigraphAlike T))) (clusteringFromNng cfg s c d o m) (clusteringFromNng cfg t c' d' o m) := by
  unfold clusteringFromNng
  rw [hc.n]
  refine same_bind (same_findSeeds cfg m _ hd) fun a b hab => ?_
  cases hab with
  | error => exact same_pure ⟨rfl, hc, hd⟩
  | ok hr =>
    refine same_bind (same_estimateRadii hs _ _ _ hr hd) fun a b hab => ?_
    cases hab with
    | error => exact same_pure ⟨rfl, hc, hd⟩
    | ok h =>
      subst h
      refine same_bind (same_ensureLabels hc) fun x y hxy => ?_
      obtain ⟨k, c⟩ := x
      obtain ⟨k', c'⟩ := y
      obtain ⟨hk, hc⟩ := hxy
      dsimp only at hk hc ⊢
      subst hk
      refine same_ite Iff.rfl (fun _ => same_bind (same_freePtr hr.seeds) fun _ _ _ => same_bind same_mkErr fun _ _ he => same_pure ⟨he, hc, hd⟩) fun _ => ?_
      exact same_bind (same_makeClusters cfg hs _ _ _ _ _ _ _ _ _ hc hr hd) fun _ _ h => same_bind (same_freePtr hr.seeds) fun _ _ _ => same_pure h

omit [FloatOps F] in
theorem same_buildNng (cfg : Cfg) (hs : SpiAlike T s t) (n : Nat) (o : Options F) : T.Same (ExcAlike (DigraphAlike T)) (buildNng cfg s n o) (buildNng cfg t n o) := by
  unfold buildNng
  exact same_ite Iff.rfl (fun _ => same_nngWithSize cfg hs _ _ _ _ _ (arrAlike_user _)) fun _ => same_nngWithTypes cfg hs _ _ _ _ _ _ _ _ (arrAlike_user _)

theorem same_clusterByNng (cfg : Cfg) (hs : SpiAlike T s t) {c c' : Clustering} (o : Options F) (m : SeedMethod) (hc : ClusteringAlike T c c') :
    T.Same (PairAlike Eq (ClusteringAlike T)) (clusterByNng cfg s c o m) (clusterByNng cfg t c' o m) := by
  unfold clusterByNng
  rw [hc.n]
  refine same_bind (same_buildNng cfg hs _ o) fun a b hab => ?_
  cases hab with
  | error => exact same_pure ⟨rfl, hc⟩
  | ok hd => exact same_bind (same_clusteringFromNng cfg hs o m hc hd) fun _ _ h => same_bind (same_freeDigraph h.2.2) fun _ _ _ => same_pure ⟨h.1, h.2.1⟩

/-- Pointers to clustering objects. -/
abbrev ObjAlike (T : Twin) : Option ClObj → Option ClObj → Prop := OptAlike (ClObjAlike T)

theorem isInitialized_congr (cfg : Cfg) {c c' : Clustering} (hc : ClusteringAlike T c c') : c.isInitialized cfg = c'.isInitialized cfg := by
  obtain ⟨hl⟩ := hc
  unfold Clustering.isInitialized
  dsimp only
  rw [hl.isNone]

theorem same_isInitialized (cfg : Cfg) {p q : Option ClObj} (h : ObjAlike T p q) : T.Same Eq (isInitialized cfg p) (isInitialized cfg q) := by
  cases h with
  | none => exact same_pure rfl
  | some h =>
    obtain ⟨hi, hc⟩ := h
    exact same_bind (same_touch (.cons hi .nil)) fun _ _ _ => same_pure (isInitialized_congr cfg hc)

theorem same_checkOptions (o : Options F) (n : Nat) : T.Same Eq (checkClusterOptions o n) (checkClusterOptions o n) := by
  unfold checkClusterOptions
  refine same_bind (same_useK .nil rfl) fun a b hab => ?_
  subst hab
  cases a with
  | none => exact same_pure rfl
  | some e => exact same_mkErr

theorem same_scClustering (cfg : Cfg) (hs : SpiAlike T s t) (o : Options F) {p q : Option ClObj} (h : ObjAlike T p q) :
    T.Same (PairAlike Eq (ObjAlike T)) (scClustering cfg s o p) (scClustering cfg t o q) := by
  unfold scClustering
  refine same_bind (same_isInitialized cfg h) fun a b hab => ?_
  subst hab
  cases h with
  | none => cases a <;> exact same_bind same_mkErr fun _ _ he => same_pure ⟨he, .none⟩
  | some h =>
    cases a with
    | false => exact same_bind same_mkErr fun _ _ he => same_pure ⟨he, .some h⟩
    | true =>
      obtain ⟨hi, hc⟩ := h
      dsimp only
      rw [hs.valid, hs.numPoints]
      have hn := hc.n
      have hk := hc
      obtain ⟨hl⟩ := hc
      refine same_ite Iff.rfl (fun _ => same_bind same_mkErr fun _ _ he => same_pure ⟨he, .some (.mk hi (.mk hl))⟩) fun _ => ?_
      refine same_ite Iff.rfl (fun _ => same_bind same_mkErr fun _ _ he => same_pure ⟨he, .some (.mk hi (.mk hl))⟩) fun _ => ?_
      refine same_bind (same_checkOptions o _) fun a b hab => ?_
      subst hab
      refine same_ite Iff.rfl (fun _ => same_pure ⟨rfl, .some (.mk hi (.mk hl))⟩) fun _ => ?_
      refine same_ite Iff.rfl (fun _ => same_bind same_mkErr fun _ _ he => same_pure ⟨he, .some (.mk hi (.mk hl))⟩) fun _ => ?_
      cases o.seedMethod with
      | batches => exact same_bind (same_clusterBatches cfg hs _ _ _ _ _ _ _ hk) fun _ _ h => same_bind (same_touch (.cons hi .nil)) fun _ _ _ => same_pure ⟨h.1, .some (.mk hi h.2)⟩
      | method m => exact same_bind (same_clusterByNng cfg hs o m hk) fun _ _ h => same_bind (same_touch (.cons hi .nil)) fun _ _ _ => same_pure ⟨h.1, .some (.mk hi h.2)⟩
      | unknown =>
        intro w v a w' hw hr
        cases hr

/-! ### Checks and statistics -/

omit [FloatOps F] in
theorem same_checkCounts (cfg : Cfg) {c c' : Clustering} (o : Options F) (hc : ClusteringAlike T c c') : T.Same Eq (checkCounts cfg c o) (checkCounts cfg c' o) := by
  obtain ⟨hl⟩ := hc
  unfold checkCounts
  dsimp only
  rw [hl.buf]
  refine same_ite Iff.rfl (fun _ => same_bind same_alloc fun a b hab => ?_) fun _ => same_bind same_alloc fun a b hab => ?_
  · cases hab with
    | null => exact same_bind same_mkErr fun _ _ he => same_pure (by rw [he])
    | ptr h =>
      refine same_bind (same_useK (.cons h hl.ids) rfl) fun a b hab => ?_
      subst hab
      refine same_bind (same_useK (.cons h .nil) rfl) fun a b hab => ?_
      subst hab
      exact same_bind (same_freeId h) fun _ _ _ => same_pure rfl
  · cases hab with
    | null => exact same_bind same_mkErr fun _ _ he => same_pure (by rw [he])
    | ptr h =>
      refine same_bind (same_useK (.cons h hl.ids) rfl) fun a b hab => ?_
      subst hab
      refine same_bind (same_useK (.cons h .nil) rfl) fun a b hab => ?_
      subst hab
      exact same_bind (same_freeId h) fun _ _ _ => same_pure rfl

theorem same_checkClustering (cfg : Cfg) {p q : Option ClObj} (o : Options F) (out : Bool) (h : ObjAlike T p q) : T.Same Eq (checkClustering cfg p o out) (checkClustering cfg q o out) := by
  unfold checkClustering
  refine same_ite Iff.rfl (fun _ => same_bind same_mkErr fun _ _ he => same_pure (by rw [he])) fun _ => ?_
  refine same_bind (same_isInitialized cfg h) fun a b hab => ?_
  subst hab
  cases h with
  | none => cases a <;> exact same_bind same_mkErr fun _ _ he => same_pure (by rw [he])
  | some h =>
    cases a with
    | false => exact same_bind same_mkErr fun _ _ he => same_pure (by rw [he])
    | true =>
      obtain ⟨hi, hc⟩ := h
      have hk := hc
      obtain ⟨hl⟩ := hc
      dsimp only
      rw [hl.buf]
      refine same_ite Iff.rfl (fun _ => same_bind same_mkErr fun _ _ he => same_pure (by rw [he])) fun _ => ?_
      refine same_bind (same_checkOptions o _) fun a b hab => ?_
      subst hab
      refine same_ite Iff.rfl (fun _ => same_pure rfl) fun _ => same_bind (same_useK hl.ids rfl) fun a b hab => ?_
      subst hab
      refine same_ite Iff.rfl (fun _ => same_pure rfl) fun _ => same_bind (same_useK hl.ids rfl) fun a b hab => ?_
      subst hab
      refine same_ite Iff.rfl (fun _ => same_pure rfl) fun _ => same_bind (same_checkCounts cfg o hk) fun a b hab => ?_
      subst hab
      exact same_pure rfl

/-- Blocks used for the statistics. -/
inductive StatIdsAlike (T : Twin) : StatIds → StatIds → Prop
  | mk {a a' b b' c c' d d' : Nat} (ha : T.Names a a') (hb : T.Names b b') (hc : T.Names c c') (hd : T.Names d d') : StatIdsAlike T ⟨a, b, c, d⟩ ⟨a', b', c', d'⟩

theorem same_statsStep (cfg : Cfg) (hs : SpiAlike T s t) {ids ids' : StatIds} (sizes ends store : Buf Nat) (hi : StatIdsAlike T ids ids') (a b : Stats F × Buf F) (c : Nat) (hab : a = b) :
    T.Same (CtlAlike Eq Eq) (statsStep cfg s ids sizes ends store a c) (statsStep cfg t ids' sizes ends store b c) := by
  subst hab
  obtain ⟨h1, h2, h3, h4⟩ := hi
  unfold statsStep
  refine same_bind (same_useK (.cons h1 (.cons h3 .nil)) rfl) fun x y hxy => ?_
  subst hxy
  refine same_ite Iff.rfl (fun _ => same_ite Iff.rfl (fun _ => same_pure (.next rfl)) fun _ => same_pure (.next rfl)) fun _ => ?_
  refine same_bind (same_touch (.cons h4 .nil)) fun _ _ _ => same_bind (hs.distMatrix _ _ _ _ (.arr (.cons h2 .nil))) fun x y hxy => ?_
  subst hxy
  cases x with
  | none => exact same_pure (.stop rfl)
  | some d =>
    refine same_bind (same_useK (.cons h4 .nil) rfl) fun x y hxy => ?_
    subst hxy
    exact same_pure (.next rfl)

theorem same_free4 {a a' b b' c c' d d' : Nat} (ha : T.Names a a') (hb : T.Names b b') (hc : T.Names c c') (hd : T.Names d d') {R : α → β → Prop} {x : M α} {y : M β} (h : T.Same R x y) :
    T.Same R (do freeId a; freeId b; freeId c; freeId d; x) (do freeId a'; freeId b'; freeId c'; freeId d'; y) :=
  same_free3 ha hb hc (same_bind (same_freeId hd) fun _ _ _ => h)

theorem same_statsRun (cfg : Cfg) (hs : SpiAlike T s t) {c c' : Clustering} (st : Stats F) {a a' b b' e e' : Blk Nat} {d d' : Blk F} (hc : ClusteringAlike T c c') (ha : BlkAlike T a a') (hb : BlkAlike T b b')
    (he : BlkAlike T e e') (hd : BlkAlike T d d') : T.Same Eq (statsRun cfg s c st a b e d) (statsRun cfg t c' st a' b' e' d') := by
  obtain ⟨ha⟩ := ha
  obtain ⟨hb⟩ := hb
  obtain ⟨he⟩ := he
  obtain ⟨hd⟩ := hd
  obtain ⟨hl⟩ := hc
  unfold statsRun
  dsimp only
  rw [hl.buf]
  refine same_bind (same_useK (.cons ha (.cons he .nil)) rfl) fun x y hxy => ?_
  subst hxy
  refine same_bind (same_useK (.cons he (.cons hb hl.ids)) rfl) fun x y hxy => ?_
  subst hxy
  refine same_bind (same_foldBM (same_statsStep cfg hs _ _ _ (.mk ha hb he hd)) _ rfl) fun x y hxy => ?_
  cases hxy with
  | next h => subst h; exact same_free4 ha hb he hd (same_pure rfl)
  | stop h => exact same_free4 ha hb he hd (same_bind same_mkErr fun _ _ he => same_pure (by rw [he]))

theorem same_statsArrays (cfg : Cfg) (hs : SpiAlike T s t) {c c' : Clustering} (st : Stats F) {a a' : Blk Nat} (hc : ClusteringAlike T c c') (ha : BlkAlike T a a') :
    T.Same Eq (statsArrays cfg s c st a) (statsArrays cfg t c' st a') := by
  have hx : ∀ x y z u v w, PtrAlike T x y → PtrAlike T z u → PtrAlike T v w → T.Same Eq
      (do freeId a.id; freePtr (α := Nat) x; freePtr (α := Nat) z; freePtr (α := F) v; let e ← mkErr .noMemory "src/utilities.c" 248; pure (e, (none : Option (Stats F))))
      (do freeId a'.id; freePtr (α := Nat) y; freePtr (α := Nat) u; freePtr (α := F) w; let e ← mkErr .noMemory "src/utilities.c" 248; pure (e, none)) := fun x y z u v w h1 h2 h3 =>
    same_bind (same_freeId (by cases ha; assumption)) fun _ _ _ => same_bind (same_freePtr h1) fun _ _ _ => same_bind (same_freePtr h2) fun _ _ _ => same_bind (same_freePtr h3) fun _ _ _ =>
      same_bind same_mkErr fun _ _ he => same_pure (by rw [he])
  unfold statsArrays
  have hk : c.numClusters = c'.numClusters := by cases hc; rfl
  rw [hk]
  refine same_bind same_alloc fun _ _ h1 => same_bind same_alloc fun _ _ h2 => same_bind same_alloc fun _ _ h3 => ?_
  cases h1 with
  | null => cases h2 with
    | null => cases h3 with
      | null => exact hx _ _ _ _ _ _ .null .null .null
      | ptr h3 => exact hx _ _ _ _ _ _ .null .null (.ptr h3)
    | ptr h2 => cases h3 with
      | null => exact hx _ _ _ _ _ _ .null (.ptr h2) .null
      | ptr h3 => exact hx _ _ _ _ _ _ .null (.ptr h2) (.ptr h3)
  | ptr h1 => cases h2 with
    | null => cases h3 with
      | null => exact hx _ _ _ _ _ _ (.ptr h1) .null .null
      | ptr h3 => exact hx _ _ _ _ _ _ (.ptr h1) .null (.ptr h3)
    | ptr h2 => cases h3 with
      | null => exact hx _ _ _ _ _ _ (.ptr h1) (.ptr h2) .null
      | ptr h3 => exact same_statsRun cfg hs st hc ha (.mk h1) (.mk h2) (.mk h3)

theorem same_statsMain (cfg : Cfg) (hs : SpiAlike T s t) {c c' : Clustering} (hc : ClusteringAlike T c c') : T.Same Eq (statsMain cfg s c) (statsMain cfg t c') := by
  have hk := hc
  obtain ⟨hl⟩ := hc
  unfold statsMain
  dsimp only
  rw [hl.buf]
  refine same_bind same_alloc fun a b hab => ?_
  cases hab with
  | null => exact same_bind same_mkErr fun _ _ he => same_pure (by rw [he])
  | ptr h =>
    refine same_bind (same_useK (.cons h hl.ids) rfl) fun x y hxy => ?_
    subst hxy
    refine same_bind (same_useK (.cons h .nil) rfl) fun x y hxy => ?_
    subst hxy
    exact same_ite Iff.rfl (fun _ => same_bind (same_freeId h) fun _ _ _ => same_pure rfl) fun _ => same_statsArrays cfg hs _ hk (.mk h)

theorem same_getStats (cfg : Cfg) (hs : SpiAlike T s t) {p q : Option ClObj} (out : Bool) (h : ObjAlike T p q) : T.Same Eq (getStats cfg s p out) (getStats cfg t q out) := by
  unfold getStats
  refine same_ite Iff.rfl (fun _ => same_bind same_mkErr fun _ _ he => same_pure (by rw [he])) fun _ => ?_
  refine same_bind (same_isInitialized cfg h) fun a b hab => ?_
  subst hab
  cases h with
  | none => cases a <;> exact same_bind same_mkErr fun _ _ he => same_pure (by rw [he])
  | some h =>
    cases a with
    | false => exact same_bind same_mkErr fun _ _ he => same_pure (by rw [he])
    | true =>
      obtain ⟨hi, hc⟩ := h
      have he : ∀ {c c' : Clustering}, ClusteringAlike T c c' → statsError s c = statsError t c' := by
        intro c c' hc
        obtain ⟨hl⟩ := hc
        unfold statsError
        rw [hs.valid, hs.numPoints]
      dsimp only
      rw [he hc]
      cases statsError t _ with
      | some e => exact same_bind same_mkErr fun _ _ he => same_pure (by rw [he])
      | none =>
        refine same_bind (same_statsMain cfg hs hc) fun x y hxy => ?_
        subst hxy
        exact same_pure rfl

/-! ### Clustering objects -/

theorem same_initEmpty (cfg : Cfg) (n : Nat) {l l' : Option (Blk Int)} (out : Bool) (hl : PtrAlike T l l') : T.Same (PairAlike Eq (ObjAlike T)) (initEmpty cfg n l out) (initEmpty cfg n l' out) := by
  have hx : ∀ {e : ErrorCode} {f : String} {i : Nat} {m : Option String}, T.Same (PairAlike Eq (ObjAlike T)) (do let e ← mkErr e f i m; pure (e, none)) (do let e ← mkErr e f i m; pure (e, none)) :=
    same_bind same_mkErr fun _ _ he => same_pure ⟨he, .none⟩
  unfold initEmpty
  refine same_ite Iff.rfl (fun _ => hx) fun _ => same_ite Iff.rfl (fun _ => hx) fun _ => same_ite Iff.rfl (fun _ => hx) fun _ => same_ite Iff.rfl (fun _ => hx) fun _ => ?_
  refine same_bind same_alloc fun a b hab => ?_
  cases hab with
  | null => exact hx
  | ptr h => exact same_pure ⟨rfl, .some (.mk h (hl.isSome ▸ .mk hl))⟩

theorem same_initExisting (cfg : Cfg) (n k : Nat) {l l' : Option (Blk Int)} (deep out : Bool) (hl : PtrAlike T l l') :
    T.Same (PairAlike Eq (ObjAlike T)) (initExisting cfg n k l deep out) (initExisting cfg n k l' deep out) := by
  have hx : ∀ {e : ErrorCode} {f : String} {i : Nat} {m : Option String}, T.Same (PairAlike Eq (ObjAlike T)) (do let e ← mkErr e f i m; pure (e, none)) (do let e ← mkErr e f i m; pure (e, none)) :=
    same_bind same_mkErr fun _ _ he => same_pure ⟨he, .none⟩
  unfold initExisting
  refine same_ite Iff.rfl (fun _ => hx) fun _ => same_ite Iff.rfl (fun _ => hx) fun _ => same_ite Iff.rfl (fun _ => hx) fun _ => same_ite Iff.rfl (fun _ => hx) fun _ => ?_
  refine same_ite Iff.rfl (fun _ => hx) fun _ => same_ite Iff.rfl (fun _ => hx) fun _ => same_ite Iff.rfl (fun _ => hx) fun _ => ?_
  cases hl with
  | null => exact hx
  | ptr hl =>
    refine same_bind same_alloc fun a b hab => ?_
    cases hab with
    | null => exact hx
    | ptr h =>
      refine same_ite Iff.rfl (fun _ => same_bind same_alloc fun a b hab => ?_) fun _ => same_pure ⟨rfl, .some (.mk h (.mk (.ptr hl)))⟩
      cases hab with
      | null => exact same_bind (same_freeId h) fun _ _ _ => hx
      | ptr h2 =>
        refine same_bind (same_useK (.cons hl (.cons h2 .nil)) rfl) fun x y hxy => ?_
        subst hxy
        exact same_pure ⟨rfl, .some (.mk h (.mk (.ptr h2)))⟩

theorem same_freeClustering {p q : Option ClObj} (h : ObjAlike T p q) : T.Same Eq (freeClustering p) (freeClustering q) := by
  cases h with
  | none => exact same_pure rfl
  | some h =>
    obtain ⟨hi, hc⟩ := h
    obtain ⟨hl⟩ := hc
    exact same_bind (same_touch (.cons hi .nil)) fun _ _ _ => same_ite Iff.rfl (fun _ => same_bind (same_freePtr hl) fun _ _ _ => same_freeId hi) fun _ => same_freeId hi

theorem same_copyClustering (cfg : Cfg) {p q : Option ClObj} (out : Bool) (h : ObjAlike T p q) : T.Same (PairAlike Eq (ObjAlike T)) (copyClustering cfg p out) (copyClustering cfg q out) := by
  have hx : ∀ {e : ErrorCode} {f : String} {i : Nat} {m : Option String}, T.Same (PairAlike Eq (ObjAlike T)) (do let e ← mkErr e f i m; pure (e, none)) (do let e ← mkErr e f i m; pure (e, none)) :=
    same_bind same_mkErr fun _ _ he => same_pure ⟨he, .none⟩
  unfold copyClustering
  refine same_ite Iff.rfl (fun _ => hx) fun _ => same_bind (same_isInitialized cfg h) fun a b hab => ?_
  subst hab
  cases h with
  | none => cases a <;> exact hx
  | some h =>
    cases a with
    | false => exact hx
    | true =>
      obtain ⟨hi, hc⟩ := h
      obtain ⟨hl⟩ := hc
      refine same_bind same_alloc fun a b hab => ?_
      cases hab with
      | null => exact hx
      | ptr h =>
        refine same_ite Iff.rfl (fun _ => same_bind same_alloc fun a b hab => ?_) fun _ => same_pure ⟨rfl, .some (.mk h (.mk .null))⟩
        cases hab with
        | null => exact same_bind (same_freeId h) fun _ _ _ => hx
        | ptr h2 =>
          refine same_bind (same_useK (.cons h2 hl.ids) (by rw [hl.buf])) fun x y hxy => ?_
          subst hxy
          exact same_pure ⟨rfl, .some (.mk h (.mk (.ptr h2)))⟩

theorem same_getInfo (cfg : Cfg) {p q : Option ClObj} (h : ObjAlike T p q) : T.Same Eq (getInfo cfg p) (getInfo cfg q) := by
  unfold getInfo
  refine same_bind (same_isInitialized cfg h) fun a b hab => ?_
  subst hab
  cases h with
  | none => cases a <;> exact same_bind same_mkErr fun _ _ he => same_pure (by rw [he])
  | some h =>
    cases a with
    | false => exact same_bind same_mkErr fun _ _ he => same_pure (by rw [he])
    | true =>
      obtain ⟨hi, hc⟩ := h
      obtain ⟨hl⟩ := hc
      exact same_pure rfl

theorem same_getLabels (cfg : Cfg) {p q : Option ClObj} (len : Nat) (out : Option (Buf Int)) (h : ObjAlike T p q) : T.Same Eq (getLabels cfg p len out) (getLabels cfg q len out) := by
  unfold getLabels
  refine same_bind (same_isInitialized cfg h) fun a b hab => ?_
  subst hab
  cases h with
  | none => cases a <;> exact same_bind same_mkErr fun _ _ he => same_pure (by rw [he])
  | some h =>
    cases a with
    | false => exact same_bind same_mkErr fun _ _ he => same_pure (by rw [he])
    | true =>
      obtain ⟨hi, hc⟩ := h
      obtain ⟨hl⟩ := hc
      refine same_ite Iff.rfl (fun _ => same_bind same_mkErr fun _ _ he => same_pure (by rw [he])) fun _ => ?_
      refine same_ite Iff.rfl (fun _ => same_bind same_mkErr fun _ _ he => same_pure (by rw [he])) fun _ => ?_
      cases out with
      | none => exact same_bind same_mkErr fun _ _ he => same_pure (by rw [he])
      | some b =>
        refine same_bind (same_useK hl.ids (by rw [hl.buf])) fun x y hxy => ?_
        subst hxy
        exact same_pure rfl

/-! ### The built-in distance functions -/

/-- Search objects of the built-in functions. -/
inductive SearchAlike (T : Twin) : SearchObj → SearchObj → Prop
  | mk {i j len : Nat} {p q : Option Arr} (h : T.Names i j) (hp : ArrAlike T p q) : SearchAlike T ⟨i, len, p⟩ ⟨j, len, q⟩

theorem same_searchInit (len : Nat) (p q : Option Arr) (hp : ArrAlike T p q) : T.Same (OptAlike (SearchAlike T)) (searchInit len p) (searchInit len q) := by
  unfold searchInit
  refine same_bind same_alloc fun a b hab => ?_
  cases hab with
  | null => exact same_pure .none
  | ptr h => exact same_pure (.some (.mk h hp))

theorem same_searchClose (o o' : SearchObj) (h : SearchAlike T o o') : T.Same Eq (searchClose o) (searchClose o') := by
  obtain ⟨h, _⟩ := h
  exact same_bind (same_freeId h) fun _ _ _ => same_pure rfl

theorem nnQuery_congr (ds : DataSet F) (len : Nat) {p q : Option Arr} (hp : ArrAlike T p q) : nnQuery ds len p = nnQuery ds len q := by
  funext query k rs rsq base dl il
  unfold nnQuery fillRadius fillFirst fillRest
  rw [hp.get]

theorem nnSearchK_congr (ds : DataSet F) (len : Nat) {p q a b : Option Arr} (lenQ k : Nat) (rs : Bool) (r : F) (out : OutQ) (dl : Buf F) (nn : Buf Nat) (hp : ArrAlike T p q) (ha : ArrAlike T a b) :
    nnSearchK ds len p lenQ a k rs r out dl nn = nnSearchK ds len q lenQ b k rs r out dl nn := by
  have h1 : outQBuf a out = outQBuf b out := by cases out <;> simp only [outQBuf, ha.bufs]
  have h2 : queryAt a out = queryAt b out := by
    funext cur i
    cases ha with
    | null => rfl
    | arr h => cases out <;> rfl
  unfold nnSearchK
  rw [nnQuery_congr ds len hp, h1, h2]

theorem same_nnSearch (ds : DataSet F) (o o' : SearchObj) (lenQ : Nat) (q q' : Option Arr) (k : Nat) (rs : Bool) (r : F) (oq : OutQ) (b : Buf Nat) (ho : SearchAlike T o o') (hq : ArrAlike T q q') :
    T.Same Eq (nnSearch ds o lenQ q k rs r oq b) (nnSearch ds o' lenQ q' k rs r oq b) := by
  obtain ⟨h, hp⟩ := ho
  unfold nnSearch
  refine same_bind same_alloc fun x y hxy => ?_
  cases hxy with
  | null => exact same_pure rfl
  | ptr hd =>
    refine same_bind (same_useK (idsAlike_append (.cons h (.cons hd hp.ids)) hq.ids) (nnSearchK_congr _ _ _ _ _ _ _ _ _ hp hq)) fun x y hxy => ?_
    subst hxy
    exact same_bind (same_freeId hd) fun _ _ _ => same_pure rfl

/-- The built-in distance functions give the same answers in both processes. -/
def builtinAlike (T : Twin) (p : Option (DataSet F)) : SpiAlike T (builtinSpi p) (builtinSpi p) where
  nn := SearchAlike T
  md := SearchAlike T
  valid := rfl
  numPoints := rfl
  distMatrix len p p' out hp := by
    refine same_bind (same_useK hp.ids (by unfold distMatrixK; rw [hp.get])) fun x y hxy => ?_
    subst hxy
    exact same_pure rfl
  distRows lenQ q q' lenC c c' out hq hc := by
    refine same_bind (same_useK (idsAlike_append hq.ids hc.ids) (by unfold distRowsK; rw [hq.get, hc.get])) fun x y hxy => ?_
    subst hxy
    exact same_pure rfl
  maxInit := same_searchInit
  maxDist o o' lenQ q q' outI outD ho hq := by
    obtain ⟨h, hp⟩ := ho
    refine same_bind (same_useK (idsAlike_append (.cons h hp.ids) hq.ids) (by unfold maxDistK; rw [hp.get, hq.get])) fun x y hxy => ?_
    subst hxy
    exact same_pure rfl
  maxClose := same_searchClose
  nnInit := same_searchInit
  nnSearch := same_nnSearch _
  nnClose := same_searchClose

end Scc
