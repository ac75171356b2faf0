/-
A call of `scc_hierarchical_clustering`.
-/
import Verif.Proofs.HiStack
import Verif.Proofs.Call

namespace Scc

variable {F : Type} [FloatOps F]

/-- The labels at the end of a successful run: there is a list of clusters as described by the invariant. -/
structure HiResult (cfg : Cfg) (n S : Nat) (batch : Bool) (dist : Nat → Nat → F) (orgs : List (List Nat)) (labels0 labels : Buf Int) (k : Nat) (done : List HiEntry) : Prop where
  count : k = done.length
  cap : k ≤ cfg.clabelMax
  pieces : ∀ e ∈ done, e.pts.Nodup ∧ (∀ x ∈ e.pts, x < n) ∧ e.org ∈ orgs ∧ Piece S e.org e.pts
  small : ∀ e ∈ done, 0 < e.pts.length ∧ e.pts.length < 2 * S
  parts : (∀ O ∈ orgs, Spread S dist O) → (stackPts done).Perm orgs.flatten
  forest : (∀ O ∈ orgs, Spread S dist O) → ∃ oss, List.Forall₂ (HiTree S batch dist) orgs oss ∧ oss.flatten = done.map HiEntry.pts
  labelled : ∀ (v j : Nat) (e : HiEntry), done[j]? = some e → v ∈ e.pts → (∀ (j' : Nat) (e' : HiEntry), j < j' → done[j']? = some e' → v ∉ e'.pts) → labels.get v = some (j : Int)
  same : ∀ v, (∀ e ∈ done, v ∉ e.pts) → labels.get v = labels0.get v

theorem HiResult.written {cfg : Cfg} {n S : Nat} {batch : Bool} {dist : Nat → Nat → F} {orgs : List (List Nat)} {labels0 labels : Buf Int} {k : Nat} {done : List HiEntry}
    (h : HiResult cfg n S batch dist orgs labels0 labels k done) {v : Nat} (hv : ∃ e ∈ done, v ∈ e.pts) : ∃ l, labels.get v = some l := by
  have key : ∀ m j e, done[j]? = some e → v ∈ e.pts → done.length ≤ j + m → ∃ l, labels.get v = some l := by
    intro m
    induction m with
    | zero => intro j e hj _ hl; have := (List.getElem?_eq_some_iff.1 hj).1; omega
    | succ m ih =>
      intro j e hj he hl
      by_cases hx : ∃ j' e', j < j' ∧ done[j']? = some e' ∧ v ∈ e'.pts
      · obtain ⟨j', e', h1, h2, h3⟩ := hx
        exact ih j' e' h2 h3 (by omega)
      · exact ⟨_, h.labelled v j e hj he fun j' e' h1 h2 h3 => hx ⟨j', e', h1, h2, h3⟩⟩
  obtain ⟨e, he, hve⟩ := hv
  obtain ⟨j, hj⟩ := List.mem_iff_getElem?.1 he
  exact key done.length j e hj hve (by omega)

/-- Outcomes of a call that is not rejected: labels, a failure before the labels are changed, and a failure in between. -/
inductive HiOutcome (cfg : Cfg) (dist : Nat → Nat → F) (w : World) (S : Nat) (batch : Bool) (mayRefuse : Prop) (M : Multiset Nat) (orgs : List (List Nat)) (cl : Clustering) : ErrorCode × Clustering → World → Prop
  | done (cl' : Clustering) (w' : World) (labels0 : Buf Int) (id : Nat) (l : Buf Int) (cs : List HiEntry) (old : ∀ lb, cl.label = some lb → labels0 = lb.buf)
      (result : HiResult cfg cl.n S batch dist orgs labels0 l cl'.numClusters cs) (labelled : Labelled cl cl'.numClusters id l cl') (live : w'.live = {id} + M) (err : w'.err = w.err) :
      HiOutcome cfg dist w S batch mayRefuse M orgs cl (.ok, cl') w'
  | early (e : ErrorCode) (cl' : Clustering) (w' : World) (cause : SysCause w (HiTooBig cfg cl.n cl.numClusters) mayRefuse e) (err : w'.err.code = e) (untouched : Untouched cl cl')
      (live : w'.live = ptrOwn cl.label + M) : HiOutcome cfg dist w S batch mayRefuse M orgs cl (e, cl') w'
  | late (e : ErrorCode) (cl' : Clustering) (w' : World) (id : Nat) (l : Buf Int) (cause : SysCause w (HiTooBig cfg cl.n cl.numClusters) mayRefuse e) (err : w'.err.code = e)
      (labelled : Labelled cl cl.numClusters id l cl') (kept : ∀ lb, cl.label = some lb → KeptLabels lb.buf l) (live : w'.live = {id} + M) : HiOutcome cfg dist w S batch mayRefuse M orgs cl (e, cl') w'

theorem hiIdxLen_ge (S : Nat) : S ≤ hiIdxLen S ∧ 100 ≤ hiIdxLen S := by unfold hiIdxLen hiNumToCheck; split <;> omega

theorem hiDistLen_ge {cfg : Cfg} {largest n : Nat} (h : 2 * n ≤ cfg.sizeMax) (hl : largest ≤ n) : 2 * largest ≤ hiDistLen cfg largest ∧ 100 ≤ hiDistLen cfg largest := by
  unfold hiDistLen hiNumToCheck
  rw [Nat.mod_eq_of_lt (by omega)]
  split <;> omega

/-- The main part after the stack is there: the clustering has the label array `lb`. -/
theorem hiMain_spec {cfg : Cfg} (hcfg : cfg.Valid) {n : Nat} {dist : Nat → Nat → F} (hd : DistLaws n dist) {hi : HiEnv F} (hhi : hi.Ok) {spi : Spi F} {mayRefuse : Prop} (ok : MetricOk spi n dist mayRefuse)
    {S : Nat} (hS : 2 ≤ S) (hS32 : 2 * S < 2 ^ 32) (batch : Bool) {cl : Clustering} (hcl : cl.n = n) {lb : Blk Int} (hlb : cl.label = some lb) (hroom : n ≤ lb.buf.len) (hn : 2 * n ≤ cfg.sizeMax)
    {stack : HiStack} {store : Blk Nat} {largest T : Nat} {st : List HiEntry} (h : HiStart cfg n S largest (2 * n + stack.items) T stack store.buf st) {big : Prop}
    (hbig1 : cfg.sizeMax < 2 * (2 * n + stack.items) + 16 → big) (hbig2 : cfg.clabelMax < T → big) {w : World} {M : Multiset Nat} (hl : w.live = {stack.clusters.id} + ({store.id} + ({lb.id} + M))) :
    WpM (hiMain cfg hi spi S batch cl stack store largest) w fun r w' => w'.fails = w.fails ∧ w'.live = {lb.id} + M ∧
      ∃ l : Buf Int, KeptLabels lb.buf l ∧ (
        (∃ k, w'.err = w.err ∧ r = (.ok, { cl with label := some ⟨lb.id, l⟩, numClusters := k }) ∧ ∃ done, HiResult cfg n S batch dist (st.map HiEntry.pts) lb.buf l k done) ∨
        (r.2 = { cl with label := some ⟨lb.id, l⟩ } ∧ w'.err.code = r.1 ∧ SysCause w big mayRefuse r.1)) := by
  subst hcl
  unfold hiMain
  rw [wpM_bind]
  refine wpM_allocP fun i1 w1 a1 f1 l1 e1 => ?_
  rw [wpM_bind]
  refine wpM_allocP fun i2 w2 a2 f2 l2 e2 => ?_
  rw [wpM_bind]
  refine wpM_allocP fun d w3 a3 f3 l3 e3 => ?_
  rw [wpM_bind]
  refine wpM_allocP fun m w4 a4 f4 l4 e4 => ?_
  rw [wpM_bind]
  refine wpM_allocP fun g1 w5 a5 f5 l5 e5 => ?_
  rw [wpM_bind]
  refine wpM_allocP fun g2 w6 a6 f6 l6 e6 => ?_
  have hf2 : w2.fails = w.fails := f2.trans f1
  have hf3 : w3.fails = w.fails := f3.trans hf2
  have hf4 : w4.fails = w.fails := f4.trans hf3
  have hf5 : w5.fails = w.fails := f5.trans hf4
  have hf6 : w6.fails = w.fails := f6.trans hf5
  have hlive : w6.live = {stack.clusters.id} + (ptrOwn i1 + (ptrOwn i2 + (ptrOwn d + (ptrOwn m + (ptrOwn g1 + (ptrOwn g2 + ({store.id} + ({lb.id} + M)))))))) := by
    rw [l6, l5, l4, l3, l2, l1, hl]; abel
  have hwork : WpM (hiWork cfg hi spi S batch cl stack store i1 i2 d m g1 g2) w6 fun r w' => w'.fails = w.fails ∧
      w'.live = {r.2.2.id} + (ptrOwn i1 + (ptrOwn i2 + (ptrOwn d + (ptrOwn m + (ptrOwn g1 + (ptrOwn g2 + ({store.id} + ({lb.id} + M)))))))) ∧
      ∃ l : Buf Int, KeptLabels lb.buf l ∧ (
        (∃ k, w'.err = w.err ∧ (r.1, r.2.1) = (.ok, { cl with label := some ⟨lb.id, l⟩, numClusters := k }) ∧ ∃ done, HiResult cfg cl.n S batch dist (st.map HiEntry.pts) lb.buf l k done) ∨
        (r.2.1 = { cl with label := some ⟨lb.id, l⟩ } ∧ w'.err.code = r.1 ∧ SysCause w big mayRefuse r.1)) := by
    have hbad : ¬ w.NoFail → WpM (do let e ← mkErr .noMemory "src/hierarchical_clustering.c" 240; pure (e, cl, stack.clusters) : Scc.M (ErrorCode × Clustering × Blk HiItem)) w6 fun r w' => w'.fails = w.fails ∧
        w'.live = {r.2.2.id} + (ptrOwn i1 + (ptrOwn i2 + (ptrOwn d + (ptrOwn m + (ptrOwn g1 + (ptrOwn g2 + ({store.id} + ({lb.id} + M)))))))) ∧
        ∃ l : Buf Int, KeptLabels lb.buf l ∧ (
          (∃ k, w'.err = w.err ∧ (r.1, r.2.1) = (.ok, { cl with label := some ⟨lb.id, l⟩, numClusters := k }) ∧ ∃ done, HiResult cfg cl.n S batch dist (st.map HiEntry.pts) lb.buf l k done) ∨
          (r.2.1 = { cl with label := some ⟨lb.id, l⟩ } ∧ w'.err.code = r.1 ∧ SysCause w big mayRefuse r.1)) := by
      intro hnf
      rw [wpM_bind]
      refine wpM_mkErr fun w7 f7 l7 e7 => ?_
      rw [wpM_pure]
      refine ⟨f7.trans hf6, l7.trans hlive, lb.buf, .refl _, Or.inr ⟨?_, by rw [e7], Or.inr (Or.inl ⟨rfl, hnf⟩)⟩⟩
      dsimp only
      rw [← hlb]
    unfold hiWork
    rcases a1 with ⟨rfl, hnf⟩ | ⟨j1, rfl⟩
    · exact hbad hnf
    rcases a2 with ⟨rfl, hnf⟩ | ⟨j2, rfl⟩
    · rw [noFail_congr f1] at hnf; exact hbad hnf
    rcases a3 with ⟨rfl, hnf⟩ | ⟨j3, rfl⟩
    · rw [noFail_congr hf2] at hnf; exact hbad hnf
    rcases a4 with ⟨rfl, hnf⟩ | ⟨j4, rfl⟩
    · rw [noFail_congr hf3] at hnf; exact hbad hnf
    rcases a5 with ⟨rfl, hnf⟩ | ⟨j5, rfl⟩
    · rw [noFail_congr hf4] at hnf; exact hbad hnf
    rcases a6 with ⟨rfl, hnf⟩ | ⟨j6, rfl⟩
    · rw [noFail_congr hf5] at hnf; exact hbad hnf
    dsimp only
    rw [wpM_bind, hlb]
    have hinv : HiInv cfg cl.n S batch dist largest (2 * cl.n + stack.items) T (st.map HiEntry.pts) lb.buf
        ⟨stack, ⟨store.buf, Buf.raw (hiIdxLen S), Buf.raw (hiIdxLen S), Buf.raw (hiDistLen cfg largest), Buf.fill cl.n 0, Buf.raw largest, Buf.raw largest⟩, lb.buf, 0⟩ st [] :=
      HiStart.inv (b := ⟨store.buf, Buf.raw (hiIdxLen S), Buf.raw (hiIdxLen S), Buf.raw (hiDistLen cfg largest), Buf.fill cl.n 0, Buf.raw largest, Buf.raw largest⟩) h
        ⟨h.storeLen, hiIdxLen_ge S, hiIdxLen_ge S, hiDistLen_ge hn h.largest, le_rfl, le_rfl⟩ rfl
    refine (hiLoop_spec hcfg hd hhi ok (ids := ⟨store.id, j1, j2, j3, j4, j5, j6⟩) (lids := ptrIds (some lb)) hS hS32 batch hbig1 hbig2 hroom (2 * cl.n + stack.items + 1) hinv (by have := h.rounds; omega) (w := w6) hlive ?_ ?_).mono ?_
    · intro x hx
      simp only [HiIds.all, List.mem_cons, List.not_mem_nil, or_false] at hx
      simp only [ptrOwn, Multiset.mem_add, Multiset.mem_singleton]
      rcases hx with hx | hx | hx | hx | hx | hx | hx <;> simp only [hx, true_or, or_true]
    · intro x hx
      simp only [ptrIds, List.mem_cons, List.not_mem_nil, or_false] at hx
      simp only [ptrOwn, Multiset.mem_add, Multiset.mem_singleton, hx, true_or, or_true]
    · rintro ⟨ec, r⟩ w7 ⟨f7, l7, len7, h7⟩
      dsimp only at l7 len7 h7 ⊢
      rw [wpM_pure]
      refine ⟨f7.trans hf6, l7, r.labels, len7, ?_⟩
      rcases h7 with ⟨h8, h9⟩ | ⟨rfl, h8, done, h9⟩
      · right
        refine ⟨?_, h8, h9.imp hf6 (fun x => x) (fun x => x)⟩
        dsimp only
        rw [if_neg h9.ne_ok]; rfl
      · left
        refine ⟨r.next, by rw [h8, e6, e5, e4, e3, e2, e1], ?_, done, ?_⟩
        · dsimp only
          rw [if_pos rfl]; rfl
        · exact ⟨h9.next, h9.nextLe, fun e he => h9.pieces e (by simpa using he), h9.small, fun hs => by simpa [stackPts] using h9.parts hs,
            fun hs => by simpa using h9.forest hs [] .nil, h9.labelled, h9.same⟩
  rw [wpM_bind]
  refine hwork.mono ?_
  rintro ⟨ec, cl', cb⟩ w7 ⟨f7, l7, h7⟩
  dsimp only at l7 h7 ⊢
  rw [wpM_bind]
  refine wpM_freePtr ({cb.id} + (ptrOwn i2 + (ptrOwn d + (ptrOwn m + (ptrOwn g1 + (ptrOwn g2 + ({store.id} + ({lb.id} + M)))))))) (by rw [l7]; abel) fun w8 f8 l8 e8 => ?_
  rw [wpM_bind]
  refine wpM_freePtr ({cb.id} + (ptrOwn d + (ptrOwn m + (ptrOwn g1 + (ptrOwn g2 + ({store.id} + ({lb.id} + M))))))) (by rw [l8]; abel) fun w9 f9 l9 e9 => ?_
  rw [wpM_bind]
  refine wpM_freePtr ({cb.id} + (ptrOwn m + (ptrOwn g1 + (ptrOwn g2 + ({store.id} + ({lb.id} + M)))))) (by rw [l9]; abel) fun w10 f10 l10 e10 => ?_
  rw [wpM_bind]
  refine wpM_freePtr ({cb.id} + (ptrOwn g1 + (ptrOwn g2 + ({store.id} + ({lb.id} + M))))) (by rw [l10]; abel) fun w11 f11 l11 e11 => ?_
  rw [wpM_bind]
  refine wpM_freePtr ({cb.id} + (ptrOwn g2 + ({store.id} + ({lb.id} + M)))) (by rw [l11]; abel) fun w12 f12 l12 e12 => ?_
  rw [wpM_bind]
  refine wpM_freePtr ({cb.id} + ({store.id} + ({lb.id} + M))) (by rw [l12]; abel) fun w13 f13 l13 e13 => ?_
  rw [wpM_bind]
  refine wpM_freeId ({store.id} + ({lb.id} + M)) l13 fun w14 f14 l14 e14 => ?_
  rw [wpM_bind]
  refine wpM_freeId ({lb.id} + M) l14 fun w15 f15 l15 e15 => ?_
  rw [wpM_pure]
  obtain ⟨l, len, h8⟩ := h7
  have herr : w15.err = w7.err := by rw [e15, e14, e13, e12, e11, e10, e9, e8]
  refine ⟨by rw [f15, f14, f13, f12, f11, f10, f9, f8, f7], l15, l, len, ?_⟩
  rw [herr]
  exact h8

/-- The points of the clusters with which the call starts: those of the clustering, or all points when it has no clusters. -/
def startClusters (cl : Clustering) : List (List Nat) :=
  if cl.numClusters = 0 then [List.range cl.n] else (oldStack (ptrBuf cl.label) cl.n cl.numClusters).map HiEntry.pts

theorem hiCluster_spec {cfg : Cfg} {dist : Nat → Nat → F} {hi : HiEnv F} (hhi : hi.Ok) {spi : Spi F} {mayRefuse : Prop} {S : Nat} {ob : ClObj} (hd : DistLaws ob.cl.n dist) (ok : MetricOk spi ob.cl.n dist mayRefuse) (batch : Bool)
    {w : World} (hc : HiCallOk cfg S ob w) (hacc : HiAccepts cfg spi.valid spi.numPoints S ob.cl) {M : Multiset Nat} (hl : w.live = ptrOwn ob.cl.label + M) :
    WpM (hiCluster cfg hi spi S batch ob.cl) w fun r w' => w'.fails = w.fails ∧ HiOutcome cfg dist w S batch mayRefuse M (startClusters ob.cl) ob.cl r w' := by
  obtain ⟨id, cl⟩ := ob
  dsimp only at *
  have hcfg := hc.config
  have hinit := isInitialized_iff.1 hacc.initialized
  have hS := hacc.size_two
  have hSn := hacc.size_le
  unfold hiCluster
  rw [wpM_bind]
  by_cases hk : cl.numClusters = 0
  · unfold hiLabels
    rw [if_pos hk]
    refine ((ensureLabels_spec hl).and ensureLabels_err).mono ?_
    rintro ⟨okb, cl1⟩ w1 ⟨⟨f1, h1⟩, e1⟩
    dsimp only at h1 ⊢
    rcases h1 with ⟨rfl, hnf, hunt, l1⟩ | ⟨rfl, lb, rfl, l1, hold, hnew⟩
    · rw [if_pos (by rfl), wpM_bind]
      refine wpM_mkErr fun w2 f2 l2 e2 => ?_
      rw [wpM_pure]
      exact ⟨f2.trans f1, .early _ cl1 w2 (Or.inr (Or.inl ⟨rfl, hnf⟩)) (by rw [e2]) hunt (by rw [l2, l1, hl])⟩
    · rw [if_neg (by simp), wpM_bind]
      have hroom : cl.n ≤ lb.buf.len := by
        cases hlab : cl.label with
        | none => rw [hnew hlab]
        | some lb' => rw [← hold lb' hlab]; exact hc.room lb' hlab
      unfold makeStack
      dsimp only
      rw [if_pos hk]
      refine (emptyStack_spec (S := S) (big := HiTooBig cfg cl.n cl.numClusters) hcfg hhi (by omega)).mono ?_
      rintro (e | ⟨stack, store, largest⟩) w2 ⟨f2, h2⟩
      · dsimp only at h2 ⊢
        rw [wpM_pure]
        refine ⟨f2.trans f1, .late e _ w2 lb.id lb.buf (h2.2.2.imp f1 (fun x => x) (fun x => x.elim)) h2.2.1 ⟨rfl, fun lb' h' => by rw [hold lb' h']; exact ⟨rfl, rfl⟩, hnew⟩ (fun lb' h' => by rw [hold lb' h']; exact .refl _) ?_⟩
        rw [h2.1, l1]
      · dsimp only at h2 ⊢
        obtain ⟨l2, e2, st, hst, horgs⟩ := h2
        have hitems : stack.items = 1 := by
          rw [hst.items, ← List.length_map (f := HiEntry.pts), horgs]; rfl
        have hst' : HiStart cfg cl.n S largest (2 * cl.n + stack.items) cl.n stack store.buf st :=
          ⟨hst.items, hst.cap, hst.cells, hst.storeLen, hst.stk, by have := hst.rounds; omega, hst.pieces, hst.big, hst.disj, hst.total, hst.largest⟩
        refine (hiMain_spec hcfg hd hhi ok hS hc.twice batch (cl := { cl with label := some lb, external := cl.external && cl.label.isSome }) (n := cl.n) rfl rfl hroom hc.points hst' (big := HiTooBig cfg cl.n cl.numClusters)
          (fun hb => Or.inr (by omega)) (fun hb => Or.inl hb) (w := w2) (M := M) (by rw [l2, l1])).mono ?_
        rintro ⟨ec, cl'⟩ w3 ⟨f3, l3, l, len, h3⟩
        have hw : w3.fails = w.fails := f3.trans (f2.trans f1)
        have hlab : ∀ k, Labelled cl k lb.id l { cl with label := some ⟨lb.id, l⟩, external := cl.external && cl.label.isSome, numClusters := k } := fun k =>
          ⟨rfl, fun lb' h' => by rw [hold lb' h']; exact ⟨rfl, len.len⟩, fun h' => len.len.trans (hnew h')⟩
        rcases h3 with ⟨k, e3, h4, done, h5⟩ | ⟨h4, h5, h6⟩
        · obtain ⟨rfl, rfl⟩ := Prod.mk.inj h4
          refine ⟨hw, .done _ w3 lb.buf lb.id l done (fun lb' h' => by rw [hold lb' h']) ?_ (hlab k) l3 (by rw [e3, e2, e1])⟩
          rw [horgs] at h5
          unfold startClusters
          rw [if_pos hk]; exact h5
        · dsimp only at h4 h5 h6 ⊢
          subst h4
          exact ⟨hw, .late ec _ w3 lb.id l (h6.imp (f2.trans f1) (fun x => x) (fun x => x)) h5 (hlab _) (fun lb' h' => by rw [hold lb' h']; exact len) l3⟩
  · unfold hiLabels
    rw [if_neg hk, wpM_pure]
    dsimp only
    rw [if_neg (by simp), wpM_bind]
    obtain ⟨lb, hlb⟩ := Option.ne_none_iff_exists'.1 (hinit.2.2.2.2 (by omega))
    obtain ⟨hv, hff⟩ := hc.labels hk lb hlb
    have hroom := hc.room lb hlb
    unfold makeStack
    rw [if_neg hk, hlb]
    have hl' : w.live = {lb.id} + M := by rw [hl, hlb]; rfl
    refine (initStack_spec hcfg hhi (S := S) (labels := lb.buf) (lids := ptrIds (some lb)) (by omega) hinit.2.2.2.1 hc.clusters hv hff (big := HiTooBig cfg cl.n cl.numClusters) (fun hb => Or.inr (by omega)) (by rw [hl']; simp [ptrIds])).mono ?_
    rintro (e | ⟨stack, store, largest⟩) w2 ⟨f2, h2⟩
    · dsimp only at h2 ⊢
      rw [wpM_pure]
      exact ⟨f2, .early e cl w2 (h2.2.2.imp rfl (fun x => x) (fun x => x.elim)) h2.2.1 (Untouched.refl cl) (by rw [h2.1, hl])⟩
    · dsimp only at h2 ⊢
      obtain ⟨l2, e2, st, hst, horgs⟩ := h2
      have hitems : stack.items = cl.numClusters := by
        rw [hst.items, ← List.length_map (f := HiEntry.pts), horgs]; simp [oldStack]
      rw [← hitems] at hst
      have hle := startOf_le lb.buf cl.n stack.items
      refine (hiMain_spec hcfg hd hhi ok hS hc.twice batch (cl := cl) rfl hlb hroom hc.points hst (big := HiTooBig cfg cl.n cl.numClusters)
        (fun hb => Or.inr (by omega)) (fun hb => Or.inl (by omega)) (w := w2) (M := M) (by rw [l2, hl'])).mono ?_
      rintro ⟨ec, cl'⟩ w3 ⟨f3, l3, l, len, h3⟩
      have hw : w3.fails = w.fails := f3.trans f2
      have hext : cl.external = (cl.external && cl.label.isSome) := by rw [hlb]; simp
      have hlab : ∀ k, Labelled cl k lb.id l { cl with label := some ⟨lb.id, l⟩, numClusters := k } := fun k =>
        ⟨by rw [← hext], fun lb' h' => by rw [hlb] at h'; cases h'; exact ⟨rfl, len.len⟩, fun h' => by rw [hlb] at h'; cases h'⟩
      rcases h3 with ⟨k, e3, h4, done, h5⟩ | ⟨h4, h5, h6⟩
      · obtain ⟨rfl, rfl⟩ := Prod.mk.inj h4
        refine ⟨hw, .done _ w3 lb.buf lb.id l done (fun lb' h' => by rw [hlb] at h'; cases h'; rfl) ?_ (hlab k) l3 (by rw [e3, e2])⟩
        rw [horgs] at h5
        unfold startClusters
        rw [if_neg hk, hlb]; exact h5
      · dsimp only at h4 h5 h6 ⊢
        subst h4
        exact ⟨hw, .late ec _ w3 lb.id l (h6.imp f2 (fun x => x) (fun x => x)) h5 (hlab _) (fun lb' h' => by rw [hlb] at h'; cases h'; exact len) l3⟩

omit [FloatOps F] in
theorem hiArgsError_none {spi : Spi F} {cl : Clustering} {S : Nat} {cfg : Cfg} (hi : cl.isInitialized cfg = true) (h : hiArgsError spi cl S = none) : HiAccepts cfg spi.valid spi.numPoints S cl := by
  unfold hiArgsError at h
  by_cases h1 : spi.valid = true
  · rw [if_neg (by simp [h1])] at h
    by_cases h2 : spi.numPoints = cl.n
    · rw [if_neg (by simp [h2])] at h
      by_cases h3 : S < 2
      · rw [if_pos h3] at h; cases h
      · rw [if_neg h3] at h
        by_cases h4 : cl.n < S
        · rw [if_pos h4] at h; cases h
        · exact ⟨hi, h1, h2, by omega, by omega⟩
    · rw [if_pos h2] at h; cases h
  · rw [if_pos (by simpa using h1)] at h; cases h

omit [FloatOps F] in
theorem hiArgsError_some {spi : Spi F} {cl : Clustering} {S : Nat} {cfg : Cfg} (hi : cl.isInitialized cfg = true) {e : ErrorCode} {l : Nat} {m : String} (h : hiArgsError spi cl S = some (e, l, m)) :
    HiRejects cfg spi.valid spi.numPoints S cl e := by
  unfold hiArgsError at h
  by_cases h1 : spi.valid = true
  · rw [if_neg (by simp [h1])] at h
    by_cases h2 : spi.numPoints = cl.n
    · rw [if_neg (by simp [h2])] at h
      by_cases h3 : S < 2
      · rw [if_pos h3] at h; cases h
        exact Or.inl ⟨rfl, Or.inr (Or.inr (Or.inr h3))⟩
      · rw [if_neg h3] at h
        by_cases h4 : cl.n < S
        · rw [if_pos h4] at h; cases h
          exact Or.inr ⟨rfl, hi, h1, h2, by omega, h4⟩
        · rw [if_neg h4] at h; cases h
    · rw [if_pos h2] at h; cases h
      exact Or.inl ⟨rfl, Or.inr (Or.inr (Or.inl h2))⟩
  · rw [if_pos (by simpa using h1)] at h; cases h
    exact Or.inl ⟨rfl, Or.inr (Or.inl (by simpa using h1))⟩

theorem hierarchical_spec {cfg : Cfg} {dist : Nat → Nat → F} {hi : HiEnv F} (hhi : hi.Ok) {spi : Spi F} {mayRefuse : Prop} {S : Nat} {ob : ClObj} (hd : DistLaws ob.cl.n dist) (ok : MetricOk spi ob.cl.n dist mayRefuse) (batch : Bool)
    {w : World} (hc : HiCallOk cfg S ob w) :
    WpM (hierarchical cfg hi spi S batch (some ob)) w fun r w' => w'.fails = w.fails ∧ (
      (HiRejects cfg spi.valid spi.numPoints S ob.cl r.1 ∧ w'.err.code = r.1 ∧ w'.live = w.live ∧ r.2 = some ob) ∨
      (HiAccepts cfg spi.valid spi.numPoints S ob.cl ∧ ∃ M cl', w.live = ptrOwn ob.cl.label + M ∧ ob.id ∈ M ∧ r.2 = some ⟨ob.id, cl'⟩ ∧
        HiOutcome cfg dist w S batch mayRefuse M (startClusters ob.cl) ob.cl (r.1, cl') w')) := by
  obtain ⟨M, hM⟩ := Multiset.le_iff_exists_add.1 hc.live
  have hlive : w.live = ptrOwn ob.cl.label + ({ob.id} + M) := by rw [hM]; abel
  have hid : ob.id ∈ w.live := by rw [hM]; simp
  unfold hierarchical isInitialized
  rw [wpM_bind, wpM_bind]
  unfold touch
  rw [wpM_useK]
  refine ⟨by simpa using hid, ?_⟩
  rw [wp_some, wpM_pure]
  cases hin : ob.cl.isInitialized cfg with
  | false =>
    dsimp only
    rw [wpM_bind]
    refine wpM_mkErr fun w1 f1 l1 e1 => ?_
    rw [wpM_pure]
    exact ⟨f1, Or.inl ⟨Or.inl ⟨rfl, Or.inl hin⟩, by rw [e1], l1, rfl⟩⟩
  | true =>
    dsimp only
    cases he : hiArgsError spi ob.cl S with
    | some x =>
      obtain ⟨e, l, m⟩ := x
      dsimp only
      rw [wpM_bind]
      refine wpM_mkErr fun w1 f1 l1 e1 => ?_
      rw [wpM_pure]
      exact ⟨f1, Or.inl ⟨hiArgsError_some hin he, by rw [e1], l1, rfl⟩⟩
    | none =>
      dsimp only
      have hacc := hiArgsError_none hin he
      rw [wpM_bind]
      refine (hiCluster_spec hhi hd ok batch hc hacc hlive).mono ?_
      rintro ⟨e, cl'⟩ w1 ⟨f1, h1⟩
      have hmem : ob.id ∈ w1.live := by
        cases h1 with
        | done _ _ labels0 id l cs old result labelled live err => rw [live]; simp
        | early _ _ _ cause err unt live => rw [live]; simp
        | late _ _ _ id l cause err labelled kept live => rw [live]; simp
      dsimp only
      rw [wpM_bind, wpM_useK]
      refine ⟨by simpa using hmem, ?_⟩
      rw [wp_some, wpM_pure]
      exact ⟨f1, Or.inr ⟨hacc, {ob.id} + M, cl', hlive, by simp, rfl, h1⟩⟩

end Scc
