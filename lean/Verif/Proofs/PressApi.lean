/-
The same call in two processes, one of which runs out of memory: batches, the clustering call and the built-in distance functions.
-/
import Verif.Proofs.PressCore
import Verif.Proofs.RepeatApi

namespace Scc

variable {α β γ δ : Type} {F : Type} {spi : Spi F} [FloatOps F]

/-! ### Batches -/

/-- Lack of memory, or a failed search. -/
def HardCode (e : ErrorCode) : Prop := e = .noMemory ∨ e = .distSearch
/-- Lack of memory, or a failed search. -/
abbrev HardPair (r : ErrorCode × α) : Prop := HardCode r.1

theorem HardCode.bad {e : ErrorCode} (h : HardCode e) : BadCode e := h.elim Or.inl fun h => Or.inr (Or.inl h)

theorem ends_hardErr {e : ErrorCode} {f : String} {l : Nat} {m : Option String} {a : α} (h : HardCode e) : Ends (do let e ← mkErr e f l m; pure (e, a)) HardPair :=
  ends_bind ends_mkErr fun _ ha => ends_pure (ha ▸ h)

theorem ClusteringAlike.clLab {cfg : Cfg} {P : Prop} {c c' : Clustering} (h : ClusteringAlike anyT c c') : ClLab cfg P c c' := by
  obtain ⟨h⟩ := h
  exact .mk h.lab

omit [FloatOps F] in
theorem pair_batchLoop (cfg : Cfg) (hs : spi.Firm) {o o' : spi.NN} {ids ids' : BatchIds} (n S : Nat) (ig rs : Bool) (r : F) (primary : Option (Buf Bool)) (bs : Nat) (ho : hs.nn S o o')
    (fuel cur : Nat) (x : RunSt) : Pair HardPair Eq (batchLoop cfg spi o ids n S ig rs r primary bs fuel cur x) (batchLoop cfg spi o' ids' n S ig rs r primary bs fuel cur x) := by
  induction fuel generalizing cur x with
  | zero =>
    unfold batchLoop
    refine pair_ite Iff.rfl (fun _ => pair_mono (pair_useK rfl) (fun _ h => h.elim) fun _ _ => id) fun _ => pair_pure rfl
  | succ fuel ih =>
    unfold batchLoop
    refine pair_ite Iff.rfl (fun _ => ?_) fun _ => pair_pure rfl
    refine pair_bind (pair_useK rfl) fun a b hab => ?_
    subst hab
    refine pair_ite Iff.rfl (fun _ => pair_pure rfl) fun _ => pair_bind pair_touch fun _ _ _ => ?_
    refine pair_bind (hs.nnSearch _ _ _ _ _ _ _ _ _ _ ho rfl) fun a b hab => ?_
    rcases hab with rfl | rfl
    · exact pair_bad (ends_bind ends_mkErr fun _ ha => ends_pure (ha ▸ Or.inr rfl))
    cases a with
    | none => exact pair_bad (ends_bind ends_mkErr fun _ ha => ends_pure (ha ▸ Or.inr rfl))
    | some res =>
      refine pair_bind (pair_useK rfl) fun a b hab => ?_
      subst hab
      refine pair_bind (pair_useK rfl) fun a b hab => ?_
      subst hab
      cases a with
      | stop st => exact pair_bind pair_mkErr fun _ _ he => pair_pure (by rw [he])
      | next st => exact ih _ _

omit [FloatOps F] in
theorem pair_runBatches (cfg : Cfg) (hs : spi.Firm) {o o' : spi.NN} {ids ids' : BatchIds} (n S : Nat) (ig rs : Bool) (r : F) (primary : Option (Buf Bool)) (bs : Nat) (batch out : Buf Nat)
    (as : Buf Bool) (lb : Buf Int) (ho : hs.nn S o o') :
    Pair HardPair Eq (runBatches cfg spi o ids n S ig rs r primary bs batch out as lb) (runBatches cfg spi o' ids' n S ig rs r primary bs batch out as lb) := by
  unfold runBatches
  refine pair_try (pair_batchLoop cfg hs n S ig rs r primary bs ho _ _ _) (fun a ha => ?_) fun a b hab => ?_
  · obtain ⟨e, a⟩ := a
    exact ends_code (e := e) (HardCode.bad ha) (ends_pure ha)
  subst hab
  refine pair_ite Iff.rfl (fun _ => pair_pure rfl) fun _ => pair_ite Iff.rfl (fun _ => ?_) fun _ => pair_pure rfl
  exact pair_ite Iff.rfl (fun _ => pair_bind pair_mkErr fun _ _ he => pair_pure (by rw [he])) fun _ => pair_bind pair_mkErr fun _ _ he => pair_pure (by rw [he])

theorem pair_initPrimary (n len : Nat) (p : Option (Buf Nat)) : Pair never PtrEq (initPrimary n len p) (initPrimary n len p) := by
  cases p with
  | none => exact pair_pure .null
  | some p =>
    refine pair_bind pair_allocU fun a b h => ?_
    obtain ⟨i, j, rfl, rfl⟩ := h
    refine pair_bind (pair_useK rfl) fun c d hcd => ?_
    subst hcd
    exact pair_pure (.ptr nm)

/-- The label array is allocated in both processes, or there is no memory for it in the first. -/
theorem pair_ensureLabels {c c' : Clustering} (hc : ClusteringAlike anyT c c') :
    Pair (fun r => r.1 = false) (PairAlike Eq (ClusteringAlike anyT)) (ensureLabels c) (ensureLabels c') := by
  obtain ⟨hl⟩ := hc
  unfold ensureLabels
  cases hl with
  | ptr h => exact pair_pure ⟨rfl, .mk (.ptr h)⟩
  | null =>
    refine pair_new pair_alloc (ends_pure rfl) fun a b hab => ?_
    cases hab with
    | null => exact pair_pure ⟨rfl, .mk .null⟩
    | ptr h => exact pair_pure ⟨rfl, .mk (.ptr h)⟩

omit [FloatOps F] in
theorem pair_batchesMain (cfg : Cfg) (hs : spi.Firm) {o o' : spi.NN} {c c' : Clustering} (S : Nat) (um : UnassignedMethod) (rs : Bool) (r : F) (len : Nat) (p : Option (Buf Nat)) (bs : Nat)
    {b b' u u' : Blk Nat} {a a' : Blk Bool} (ho : hs.nn S o o') (hc : ClusteringAlike anyT c c') (hb : b.buf = b'.buf) (hu : u.buf = u'.buf) (ha : a.buf = a'.buf) :
    Pair HardPair (PairAlike Eq (ClusteringAlike anyT)) (batchesMain cfg spi o c S um rs r len p bs b u a) (batchesMain cfg spi o' c' S um rs r len p bs b' u' a') := by
  unfold batchesMain
  refine pair_try (pair_ensureLabels hc) (fun x hx => ?_) fun x y hxy => ?_
  · obtain ⟨k, c⟩ := x
    cases hx
    exact ends_next fun _ => ends_next fun _ => ends_next fun _ => ends_next fun _ => ends_hardErr (Or.inl rfl)
  obtain ⟨k, c⟩ := x
  obtain ⟨k', c'⟩ := y
  obtain ⟨hk, hc⟩ := hxy
  dsimp only at hk hc ⊢
  subst hk
  refine pair_ite Iff.rfl (fun _ => ?_) fun _ => ?_
  · exact pair_free3 (pair_bind (hs.nnClose _ _ _ ho) fun _ _ _ => pair_bind pair_mkErr fun _ _ he => pair_pure ⟨he, hc⟩)
  · obtain ⟨hl⟩ := hc
    refine pair_bind (pair_initPrimary _ _ _) fun x y hp => ?_
    dsimp only
    rw [hl.buf, hp.bufs, hb, hu, ha]
    refine pair_try (pair_runBatches cfg hs _ _ _ _ _ _ _ _ _ _ _ ho) (fun x hx => ?_) fun x y hxy => ?_
    · exact ends_next fun _ => ends_next fun _ => ends_next fun _ => ends_next fun _ => ends_next fun _ => ends_pure hx
    subst hxy
    exact pair_free3 (pair_bind (pair_freePtr hp) fun _ _ _ => pair_bind (hs.nnClose _ _ _ ho) fun _ _ _ => pair_pure ⟨rfl, .mk (hl.set _)⟩)

theorem pair_clusterBatches (cfg : Cfg) (hs : spi.Firm) {c c' : Clustering} (S : Nat) (um : UnassignedMethod) (rs : Bool) (r : F) (len : Nat) (p : Option (Buf Nat)) (bs : Nat)
    (hc : ClusteringAlike anyT c c') : Pair HardPair (PairAlike Eq (ClusteringAlike anyT)) (clusterBatches cfg spi c S um rs r len p bs) (clusterBatches cfg spi c' S um rs r len p bs) := by
  unfold clusterBatches
  have he : batchArgsError spi c S um rs r len p = batchArgsError spi c' S um rs r len p := by
    obtain ⟨hl⟩ := hc
    rfl
  rw [he]
  cases batchArgsError spi c' S um rs r len p with
  | some e => exact pair_bind pair_mkErr fun _ _ he => pair_pure ⟨he, hc⟩
  | none =>
    dsimp only
    rw [hc.n]
    refine pair_bind (hs.nnInit _ S _ _ ⟨rfl, fun _ _ => rfl⟩) fun a b hab => ?_
    rcases hab with rfl | ⟨o, o', rfl, rfl, ho⟩
    · exact pair_bad (ends_hardErr (Or.inr rfl))
    have hx : ∀ (a : Option (Blk Nat)) (b : Option (Blk Nat)) (e : Option (Blk Bool)), Ends (do freePtr a; freePtr b; freePtr e; let _ ← spi.nnClose o; let e ← mkErr .noMemory "src/nng_batch_clustering.c" 125; pure (e, c)) HardPair := fun _ _ _ => ends_next fun _ => ends_next fun _ => ends_next fun _ => ends_next fun _ => ends_hardErr (Or.inl rfl)
    refine pair_bind pair_allocN fun a a' h1 => pair_bind pair_allocN fun b b' h2 => pair_bind pair_allocN fun d d' h3 => ?_
    obtain ⟨h1, _, rfl⟩ := h1
    obtain ⟨h2, _, rfl⟩ := h2
    obtain ⟨h3, _, rfl⟩ := h3
    rcases h1 with rfl | ⟨i, rfl⟩
    · exact pair_bad (hx _ _ _)
    rcases h2 with rfl | ⟨j, rfl⟩
    · exact pair_bad (hx _ _ _)
    rcases h3 with rfl | ⟨k, rfl⟩
    · exact pair_bad (hx _ _ _)
    exact pair_batchesMain cfg hs _ _ _ _ _ _ _ ho hc rfl rfl rfl

/-! ### The clustering call -/

theorem pair_estimateRadii (hs : spi.Firm) {sr sr' : SeedResult} {d d' : Digraph} (S : Nat) (r1 r2 : RadiusMethod × F) (hr : SeedsSame sr sr') (hd : DgEq d d') :
    Pair BadExc (ExcAlike Eq) (estimateRadii spi sr d S r1 r2) (estimateRadii spi sr' d' S r1 r2) := by
  unfold estimateRadii
  refine pair_ite Iff.rfl (fun _ => ?_) fun _ => pair_pure (.ok rfl)
  refine pair_exc (pair_estimateAvg hs _ hr hd) (fun e he => ends_next fun _ => ends_badExc he) (fun e => pair_bind (pair_freeSeeds hr) fun _ _ _ => pair_pure .error) fun x y h => ?_
  subst h
  dsimp only
  cases useEstimate x r1 with
  | none => exact pair_bind (pair_freeSeeds hr) fun _ _ _ => pair_fail
  | some r1 =>
    dsimp only
    cases useEstimate x r2 with
    | none => exact pair_bind (pair_freeSeeds hr) fun _ _ _ => pair_fail
    | some r2 => exact pair_pure (.ok rfl)

theorem pair_clusteringFromNng (cfg : Cfg) (hs : spi.Firm) {c c' : Clustering} {d d' : Digraph} (o : Options F) (m : SeedMethod) (hc : ClusteringAlike anyT c c') (hd : DgEq d d') :
    Pair BadPair (PairAlike Eq (PairAlike (ClLab cfg (Searches o.secondaryMethod)) DgEq)) (clusteringFromNng cfg spi c d o m) (clusteringFromNng cfg spi c' d' o m) := by
  unfold clusteringFromNng
  rw [hc.n]
  refine pair_exc (pair_findSeeds cfg m _ hd) (fun e he => ends_pure he) (fun e => pair_pure ⟨rfl, hc.clLab, hd⟩) fun a b hr => ?_
  refine pair_exc (pair_estimateRadii hs _ _ _ hr hd) (fun e he => ends_pure he) (fun e => pair_pure ⟨rfl, hc.clLab, hd⟩) fun a b h => ?_
  subst h
  obtain ⟨r1, r2⟩ := a
  refine pair_try (pair_ensureLabels hc) (fun x hx => ?_) fun x y hxy => ?_
  · obtain ⟨k, c⟩ := x
    cases hx
    exact ends_next fun _ => ends_badErr badMemory
  obtain ⟨k, c⟩ := x
  obtain ⟨k', c'⟩ := y
  obtain ⟨hk, hc⟩ := hxy
  dsimp only at hk hc ⊢
  subst hk
  refine pair_ite Iff.rfl (fun _ => pair_bind (pair_freeSeeds hr) fun _ _ _ => pair_bind pair_mkErr fun _ _ he => pair_pure ⟨he, hc.clLab, hd⟩) fun _ => ?_
  exact pair_try (pair_makeClusters cfg hs _ _ _ _ _ _ _ _ _ hc hr hd) (fun a ha => ends_next fun _ => ends_pure ha) fun _ _ h => pair_bind (pair_freeSeeds hr) fun _ _ _ => pair_pure h

omit [FloatOps F] in
theorem pair_buildNng (cfg : Cfg) (hs : spi.Firm) (n : Nat) (o : Options F) : Pair BadExc (ExcAlike DgEq) (buildNng cfg spi n o) (buildNng cfg spi n o) := by
  unfold buildNng
  exact pair_ite Iff.rfl (fun _ => pair_nngWithSize cfg hs _ _ _ _ _ (arrAlike_user _)) fun _ => pair_nngWithTypes cfg hs _ _ _ _ _ _ _ _ (arrAlike_user _)

theorem pair_clusterByNng (cfg : Cfg) (hs : spi.Firm) {c c' : Clustering} (o : Options F) (m : SeedMethod) (hc : ClusteringAlike anyT c c') :
    Pair BadPair (PairAlike Eq (ClLab cfg (Searches o.secondaryMethod))) (clusterByNng cfg spi c o m) (clusterByNng cfg spi c' o m) := by
  unfold clusterByNng
  rw [hc.n]
  refine pair_exc (pair_buildNng cfg hs _ o) (fun e he => ends_pure he) (fun e => pair_pure ⟨rfl, hc.clLab⟩) fun a b hd => ?_
  refine pair_try (pair_clusteringFromNng cfg hs o m hc hd) (fun a ha => ends_next fun _ => ends_pure ha) fun _ _ h => ?_
  exact pair_bind (pair_freeDigraph h.2.2) fun _ _ _ => pair_pure ⟨h.1, h.2.1⟩

/-- Clustering objects whose labels are related. -/
inductive ObjLab (cfg : Cfg) (P : Prop) : Option ClObj → Option ClObj → Prop
  | none : ObjLab cfg P none none
  | some {i j : Nat} {c c' : Clustering} (h : ClLab cfg P c c') : ObjLab cfg P (some ⟨i, c⟩) (some ⟨j, c'⟩)

theorem pair_isInitialized (cfg : Cfg) (p : Option ClObj) : Pair never Eq (isInitialized cfg p) (isInitialized cfg p) := by
  cases p with
  | none => exact pair_pure rfl
  | some h => exact pair_bind pair_touch fun _ _ _ => pair_pure rfl

theorem pair_checkOptions (o : Options F) (n : Nat) : Pair never Eq (checkClusterOptions o n) (checkClusterOptions o n) := by
  unfold checkClusterOptions
  refine pair_bind (pair_useK rfl) fun a b hab => ?_
  subst hab
  cases a with
  | none => exact pair_pure rfl
  | some e => exact pair_mkErr

theorem clusteringAlike_refl (c : Clustering) : ClusteringAlike anyT c c := by
  obtain ⟨v, n, k, l, e⟩ := c
  cases l with
  | none => exact .mk .null
  | some l => exact .mk (.ptr nm)

/-- The whole call. -/
theorem pair_scClustering (cfg : Cfg) (hs : spi.Firm) (o : Options F) (p : Option ClObj) :
    Pair (fun r => HardCode r.1 ∨ o.seedMethod ≠ .batches ∧ r.1 = .tooLarge) (PairAlike Eq (ObjLab cfg (o.seedMethod ≠ .batches ∧ Searches o.secondaryMethod))) (scClustering cfg spi o p) (scClustering cfg spi o p) := by
  have hp : ObjLab cfg (o.seedMethod ≠ .batches ∧ Searches o.secondaryMethod) p p := by
    cases p with
    | none => exact .none
    | some ob => exact .some (clusteringAlike_refl ob.cl).clLab
  unfold scClustering
  refine pair_bind (pair_isInitialized cfg p) fun a b hab => ?_
  subst hab
  cases p with
  | none => cases a <;> exact pair_bind pair_mkErr fun _ _ he => pair_pure ⟨he, hp⟩
  | some ob =>
    cases a with
    | false => exact pair_bind pair_mkErr fun _ _ he => pair_pure ⟨he, hp⟩
    | true =>
      dsimp only
      refine pair_ite Iff.rfl (fun _ => pair_bind pair_mkErr fun _ _ he => pair_pure ⟨he, hp⟩) fun _ => ?_
      refine pair_ite Iff.rfl (fun _ => pair_bind pair_mkErr fun _ _ he => pair_pure ⟨he, hp⟩) fun _ => ?_
      refine pair_bind (pair_checkOptions o _) fun a b hab => ?_
      subst hab
      refine pair_ite Iff.rfl (fun _ => pair_pure ⟨rfl, hp⟩) fun _ => ?_
      refine pair_ite Iff.rfl (fun _ => pair_bind pair_mkErr fun _ _ he => pair_pure ⟨he, hp⟩) fun _ => ?_
      have hk := clusteringAlike_refl ob.cl
      cases hm : o.seedMethod with
      | batches =>
        refine pair_try (pair_clusterBatches cfg hs _ _ _ _ _ _ _ hk) (fun a ha => ends_next fun _ => ends_pure (Or.inl ha)) fun _ _ h => ?_
        exact pair_bind pair_touch fun _ _ _ => pair_pure ⟨h.1, .some h.2.clLab⟩
      | method m =>
        refine pair_try (pair_clusterByNng cfg hs o m hk) (fun a ha => ends_next fun _ => ends_pure (by
          rcases ha with ha | ha | ha
          · exact Or.inl (Or.inl ha)
          · exact Or.inl (Or.inr ha)
          · exact Or.inr ⟨nofun, ha⟩)) fun a b h => ?_
        refine pair_bind pair_touch fun _ _ _ => pair_pure ⟨h.1, .some ?_⟩
        obtain ⟨_, h⟩ := h
        revert h
        obtain ⟨e, a⟩ := a
        obtain ⟨e', b⟩ := b
        rintro ⟨h⟩
        refine .mk ?_
        cases h with
        | null => exact .null
        | ptr h => exact .ptr fun v => (h v).imp id fun h => ⟨⟨nofun, h.1⟩, h.2⟩
      | unknown =>
        intro w v r s _ _ h1 _
        cases h1

end Scc
