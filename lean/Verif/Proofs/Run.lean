/-
`scc_sc_clustering` for the methods that build a nearest neighbour digraph: outcomes of a whole call.
-/
import Verif.Proofs.NngRun

set_option linter.unusedSimpArgs false
set_option linter.unusedVariables false

namespace Scc

variable {F : Type} [FloatOps F]

/-- The clustering `cl'` is `cl` with the labels `l` of `k` clusters, in the label array of `cl` if there is one and otherwise in a new one. -/
structure Labelled (cl : Clustering) (k : Nat) (id : Nat) (l : Buf Int) (cl' : Clustering) : Prop where
  eq : cl' = { cl with numClusters := k, label := some ⟨id, l⟩, external := cl.external && cl.label.isSome }
  old : ∀ lb, cl.label = some lb → id = lb.id ∧ l.len = lb.buf.len
  new : cl.label = none → l.len = cl.n

/-- The clustering is the same, except that the flag for user supplied labels may be cleared when there are no labels. -/
structure Untouched (cl cl' : Clustering) : Prop where
  same : cl.label ≠ none → cl' = cl
  flag : cl' = { cl with external := cl'.external }

theorem Untouched.refl (cl : Clustering) : Untouched cl cl := ⟨fun _ => rfl, rfl⟩

/-- Causes of a failure that leaves the clustering alone. -/
def EarlyCause (cfg : Cfg) (A : Criterion F) (dist : Nat → Nat → F) (w : World) (n : Nat) (o : Options F) (m : SeedMethod) (P : List Nat) (lab c : Nat → Nat) (mayRefuse : Prop)
    (e : ErrorCode) : Prop :=
  SysCause w (TooBig cfg n o.sizeConstraint m) mayRefuse e ∨
  e = .noSolution ∧ (NoSeeds A n o P lab c ∨
    ∃ rows order, NngStored cfg A n o P lab c rows ∧ order.Perm (List.range n) ∧ BuildOrder cfg m rows n order ∧ BadEstimate dist o rows (greedySeeds rows order)) ∨
  e = .invalidInput ∧ 2 ≤ o.numTypes ∧ o.sizeConstraint < ((List.range o.numTypes).map c).sum

theorem EarlyCause.ne_ok {cfg : Cfg} {A : Criterion F} {dist : Nat → Nat → F} {w : World} {n : Nat} {o : Options F} {m : SeedMethod} {P : List Nat} {lab c : Nat → Nat}
    {mayRefuse : Prop} {e : ErrorCode} (h : EarlyCause cfg A dist w n o m P lab c mayRefuse e) : e ≠ .ok := by
  rcases h with h | ⟨rfl, -⟩ | ⟨rfl, -⟩
  · exact h.ne_ok
  · simp
  · simp

/-- Outcomes of a call: labels, a failure before the clustering is changed, and a failure while points are assigned. -/
inductive RunOutcome (cfg : Cfg) (A : Criterion F) (dist : Nat → Nat → F) (w : World) (n : Nat) (o : Options F) (m : SeedMethod) (P : List Nat) (lab c : Nat → Nat)
    (mayRefuse : Prop) (M : Multiset Nat) (cl : Clustering) : ErrorCode × Clustering → World → Prop
  | done (cl' : Clustering) (w' : World) (rows : Nat → List Nat) (order : List Nat) (L2 L3 L : Nat → Option Nat) (id : Nat) (l : Buf Int)
      (data : RunData cfg A dist n o m P lab c (¬ w.NoFail ∨ mayRefuse) rows order L2 L3 L cl'.numClusters l) (labelled : Labelled cl cl'.numClusters id l cl')
      (live : w'.live = {id} + M) : RunOutcome cfg A dist w n o m P lab c mayRefuse M cl (.ok, cl') w'
  | early (e : ErrorCode) (cl' : Clustering) (w' : World) (leak : Multiset Nat) (cause : EarlyCause cfg A dist w n o m P lab c mayRefuse e) (untouched : Untouched cl cl')
      (err : w'.err.code = e) (live : w'.live = leak + (ptrOwn cl.label + M)) (leaked : leak = 0 ∨ m.IsExclusion ∧ ¬ w.NoFail ∧ leak.card = 1 ∨ m.IsExclusion ∧ e = .tooLarge ∧ leak.card = 1) :
      RunOutcome cfg A dist w n o m P lab c mayRefuse M cl (e, cl') w'
  | late (e : ErrorCode) (cl' : Clustering) (w' : World) (L : Nat → Option Nat) (id : Nat) (l : Buf Int) (cause : SysCause w False mayRefuse e) (err : w'.err.code = e)
      (search : o.secondaryMethod = .ignore → o.primaryMethod ≠ .ignore ∧ o.primaryMethod ≠ .anyNeighbor) (labels : LabelsAre cfg n l L) (lt : LabelsLt n cl'.numClusters L) (pos : 0 < cl'.numClusters) (cap : cl'.numClusters ≤ cfg.clabelMax) (labelled : Labelled cl cl'.numClusters id l cl')
      (live : w'.live = {id} + M) : RunOutcome cfg A dist w n o m P lab c mayRefuse M cl (e, cl') w'

theorem seedsOk_of_nng {n S : Nat} {P : List Nat} {rows : Nat → List Nat} (hf : NngFacts n S P rows) {order : List Nat} (hp : order.Perm (List.range n)) :
    SeedsOk n rows (greedySeeds rows order) :=
  ⟨fun s hs => List.mem_range.1 (hp.mem_iff.1 ((greedySeeds_sublist rows order).subset hs)), greedySeeds_disjoint⟩

theorem seedRows_of_nng {n S : Nat} {P : List Nat} {rows : Nat → List Nat} (hf : NngFacts n S P rows) {order : List Nat} (hp : order.Perm (List.range n)) :
    SeedRows n S rows (greedySeeds rows order) :=
  have h := (seedsOk_of_nng hf hp).range
  ⟨h, fun s hs => greedySeeds_arcs s hs, fun s hs => hf.high s (h s hs), fun s hs => (hf.nodup s (h s hs)).2⟩

theorem ensureLabels_spec {cl : Clustering} {w : World} {M : Multiset Nat} (hlive : w.live = ptrOwn cl.label + M) :
    WpM (ensureLabels cl) w fun r w' => w'.fails = w.fails ∧ (
      r.1 = false ∧ ¬ w.NoFail ∧ Untouched cl r.2 ∧ w'.live = w.live ∨
      r.1 = true ∧ ∃ lb : Blk Int, r.2 = { cl with label := some lb, external := cl.external && cl.label.isSome } ∧ w'.live = {lb.id} + M ∧
        (∀ lb', cl.label = some lb' → lb' = lb) ∧ (cl.label = none → lb.buf.len = cl.n)) := by
  unfold ensureLabels
  cases hl : cl.label with
  | some lb =>
    dsimp only
    rw [wpM_pure]
    refine ⟨rfl, Or.inr ⟨rfl, lb, by cases cl; simp_all, by rw [hlive, hl]; simp, by simp, by simp⟩⟩
  | none =>
    dsimp only
    rw [wpM_bind]
    refine wpM_alloc (fun w1 hf k1 k2 k3 => ?_) (fun i w1 k1 k2 k3 => ?_)
    · dsimp only
      rw [wpM_pure]
      exact ⟨k1, Or.inl ⟨rfl, hf, ⟨fun h => absurd hl h, by simp [hl]⟩, k2⟩⟩
    · dsimp only
      rw [wpM_pure]
      refine ⟨k1, Or.inr ⟨rfl, ⟨i, Buf.raw cl.n⟩, by simp, ?_, by simp, by simp⟩⟩
      rw [k2, hlive, hl]; simp

theorem WpM.and {α : Type} {x : Scc.M α} {w : World} {P Q : α → World → Prop} (h : WpM x w P) (h' : WpM x w Q) : WpM x w fun a w' => P a w' ∧ Q a w' := by
  obtain ⟨a, w1, h1, h2⟩ := h
  obtain ⟨b, w2, h3, h4⟩ := h'
  rw [h1] at h3
  cases h3
  exact ⟨a, w1, h1, h2, h4⟩

theorem ensureLabels_err {cl : Clustering} {w : World} : WpM (ensureLabels cl) w fun _ w' => w'.err = w.err := by
  unfold ensureLabels
  cases hl : cl.label with
  | some lb =>
    dsimp only
    rw [wpM_pure]
  | none =>
    dsimp only
    rw [wpM_bind]
    refine wpM_alloc (fun w1 hf k1 k2 k3 => ?_) (fun i w1 k1 k2 k3 => ?_)
    · dsimp only
      rw [wpM_pure]; exact k3
    · dsimp only
      rw [wpM_pure]; exact k3

theorem clusteringFromNng_spec {cfg : Cfg} (hcfg : cfg.Valid) {spi : Spi F} {n : Nat} {A : Criterion F} {dist : Nat → Nat → F} {mayRefuse : Prop} (hs : SpiOk spi n A dist mayRefuse)
    {o : Options F} {P : List Nat} {lab c : Nat → Nat} (hv : ValidOptions o n P) (ha : OptionArrays n o P lab c) (hnsz : n < cfg.sizeMax) (m : SeedMethod)
    {cl : Clustering} (hcl : cl.n = n) (hlb : ∀ lb, cl.label = some lb → n ≤ lb.buf.len)
    {nng : Digraph} {rows : Nat → List Nat} (hr : nng.Repr cfg rows) (hn : nng.n = n) (hnng : NngStored cfg A n o P lab c rows) (hne : ∃ v < n, rows v ≠ [])
    {w : World} {M : Multiset Nat} (hlive : w.live = nng.own + (ptrOwn cl.label + M)) (hu : w.UncheckedOk) :
    WpM (clusteringFromNng cfg spi cl nng o m) w fun r w' => w'.fails = w.fails ∧
      ∃ M', M' = r.2.2.own + M ∧ RunOutcome cfg A dist w n o m P lab c mayRefuse M' cl (r.1, r.2.1) w' := by
  subst hcl
  have hf := hnng.facts hv.size_two
  have hngl : ∀ i ∈ nng.ids, i ∈ w.live := fun i hi => by rw [hlive]; exact Multiset.mem_add.2 (Or.inl (mem_ids_iff_own.1 hi))
  unfold clusteringFromNng
  rw [wpM_bind]
  refine (findSeeds_order_spec m (1 + cl.n / o.sizeConstraint) hr (fun _ v hv => (hf.nodup v (hn ▸ hv)).1) hngl (fun _ => hu)).mono ?_
  rintro (e | sr) w1 h1
  · dsimp only
    rw [wpM_pure]
    obtain ⟨leak, h1, h2⟩ := h1
    refine ⟨h1.fails, _, rfl, .early e cl w1 leak ?_ (Untouched.refl cl) h1.err ?_ ?_⟩
    · left
      rcases h1.cause with ⟨rfl, hb⟩ | ⟨rfl, hb⟩
      · refine Or.inl ⟨rfl, ?_⟩
        rw [hn] at hb
        rcases hb with hb | hb
        · exact Or.inr (Or.inr ⟨hb.1, hb.2.square (hn ▸ hr.csr.range)⟩)
        · exact Or.inr (Or.inl hb)
      · exact Or.inr (Or.inl ⟨rfl, hb⟩)
    · rw [h1.live]
      show leak + w.live = _
      rw [hlive]
      show _ = leak + (ptrOwn cl.label + (nng.own + M))
      abel
    · rcases h2 with h2 | ⟨h2, h3⟩
      · exact Or.inl h2
      · rcases h1.cause with ⟨rfl, hb⟩ | ⟨rfl, hb⟩
        · exact Or.inr (Or.inr ⟨h2.1, rfl, h3⟩)
        · exact Or.inr (Or.inl ⟨h2.1, hb, h3⟩)
  · obtain ⟨order, hord, hperm, hinv⟩ := h1
    dsimp only
    rw [hn] at hperm hord
    have hsok := seedsOk_of_nng hf hperm
    have hrow := seedRows_of_nng hf hperm
    have hne' : greedySeeds rows order ≠ [] := by
      obtain ⟨v, hv1, hv2⟩ := hne
      exact greedySeeds_ne_nil (hperm.mem_iff.2 (List.mem_range.2 hv1)) hv2
    have hngl1 : ∀ i ∈ nng.ids, i ∈ w1.live := fun i hi => by rw [hinv.live]; exact Multiset.mem_add.2 (Or.inr (hngl i hi))
    rw [wpM_bind]
    refine (estimateRadii_spec hs hv.seedRadius.1 hinv.holds hr hn hrow hinv.live hngl1).mono ?_
    rintro (e | ⟨r1, r2⟩) w2 h2
    · dsimp only
      rw [wpM_pure]
      refine ⟨h2.fails.trans hinv.fails, _, rfl, .early e cl w2 0 ?_ (Untouched.refl cl) h2.err ?_ (Or.inl rfl)⟩
      · rcases h2.cause with h | ⟨rfl, h⟩
        · exact Or.inl (h.imp hinv.fails (by simp) id)
        · exact Or.inr (Or.inl ⟨rfl, Or.inr ⟨rows, order, hnng, hperm, hord, h⟩⟩)
      · rw [h2.live]
        show w.live = 0 + (ptrOwn cl.label + (nng.own + M))
        rw [hlive]; abel
    · obtain ⟨f2, l2, hest, e1, e2⟩ := h2
      dsimp only
      rw [wpM_bind]
      have hlive2 : w2.live = ptrOwn cl.label + (ptrOwn sr.seeds + nng.own + M) := by
        rw [l2, hinv.live, hlive]; abel
      refine (ensureLabels_spec hlive2).mono ?_
      rintro ⟨ok, cl3⟩ w3 ⟨f3, h3⟩
      dsimp only at h3 ⊢
      rcases h3 with ⟨rfl, h3, h4, h5⟩ | ⟨rfl, lb, rfl, h5, h6, h7⟩
      · simp only [Bool.not_false, ↓reduceIte]
        rw [wpM_bind]
        refine wpM_freePtr (ptrOwn cl.label + (nng.own + M)) (by rw [h5, hlive2]; abel) fun w4 k1 k2 k3 => ?_
        rw [wpM_bind]
        refine wpM_mkErr fun w5 l1 l2' l3 => ?_
        rw [wpM_pure]
        refine ⟨by rw [l1, k1, f3, f2, hinv.fails], _, rfl, .early _ cl3 w5 0 (Or.inl (Or.inr (Or.inl ⟨rfl, ?_⟩))) h4 (by rw [l3]) (by rw [l2', k2]; simp) (Or.inl rfl)⟩
        rw [noFail_congr (f2.trans hinv.fails)] at h3; exact h3
      · simp only [Bool.not_true, Bool.false_eq_true, ↓reduceIte]
        rw [wpM_bind]
        obtain ⟨sb, hsb, -⟩ := hinv.holds.block
        have hlive3 : w3.live = nng.own + (ptrOwn sr.seeds + {lb.id} + M) := by rw [h5]; abel
        refine (makeClusters_spec hcfg hs (cl := { cl with label := some lb, external := cl.external && cl.label.isSome }) (lb := lb) (decide (o.numTypes < 2)) o.primaryMethod
          (decide (r1.1 = .useSupplied)) r1.2 o.secondaryMethod (decide (r2.1 = .useSupplied)) r2.2 (ptrOwn sr.seeds + {lb.id} + M) rfl rfl ?_ ?_ hinv.holds ?_ hsok hne' hinv.cap hr hn
          hf.nodup hlive3 (hv.primaryIs ha) hnsz (hu.congr (f3.trans (f2.trans hinv.fails)))).mono ?_
        · cases hl : cl.label with
          | none => rw [h7 hl]
          | some lb' => rw [← h6 lb' hl]; exact hlb lb' hl
        · simp
        · intro i hi
          rw [hsb] at hi ⊢
          simp [ptrIds] at hi
          subst hi
          simp
        · rintro ⟨ec, cl4, nng4⟩ w4 h4
          have hlive4 := h4.live
          obtain ⟨l, hl1, hl2, hl3⟩ := h4.labels
          have hff : w3.fails = w.fails := f3.trans (f2.trans hinv.fails)
          dsimp only at hlive4 hl1 hl2 hl3 ⊢
          rw [wpM_bind]
          refine wpM_freePtr ({lb.id} + (nng4.own + M)) (by rw [hlive4]; abel) fun w5 k1 k2 k3 => ?_
          rw [wpM_pure]
          refine ⟨by rw [k1, h4.fails, hff], _, rfl, ?_⟩
          have hlab : Labelled cl cl4.numClusters lb.id l cl4 := by
            refine ⟨by rw [hl1], fun lb' hlb' => ?_, fun hnone => by rw [hl2]; exact h7 hnone⟩
            rw [h6 lb' hlb']; exact ⟨rfl, hl2⟩
          have hk : cl4.numClusters = (greedySeeds rows order).length := by rw [hl1]
          rcases hl3 with ⟨rfl, L2, L3, L, hL, hst⟩ | ⟨he, hc, hsch, L, hL, hlt⟩
          · refine .done cl4 w5 rows order L2 L3 L lb.id l ⟨hnng, hperm, hord, hne', hk, by rw [hk]; exact hinv.cap, hest, ?_, hL⟩ hlab k2
            rw [e1, e2] at hst
            rw [noFail_congr hff] at hst
            exact hst
          · exact .late ec cl4 w5 L lb.id l (hc.imp hff id id) (by rw [k3]; exact he) hsch hL (by rw [hk]; exact hlt) (by rw [hk]; exact List.length_pos_iff.2 hne') (by rw [hk]; exact hinv.cap) hlab k2

theorem RunOutcome.free {cfg : Cfg} {A : Criterion F} {dist : Nat → Nat → F} {w : World} {n : Nat} {o : Options F} {m : SeedMethod} {P : List Nat} {lab c : Nat → Nat}
    {mayRefuse : Prop} {D M : Multiset Nat} {cl : Clustering} {r : ErrorCode × Clustering} {w' : World} (h : RunOutcome cfg A dist w n o m P lab c mayRefuse (D + M) cl r w') :
    ∃ L, w'.live = D + L ∧ ∀ w'', w''.err = w'.err → w''.live = L → RunOutcome cfg A dist w n o m P lab c mayRefuse M cl r w'' := by
  cases h with
  | done cl' _ rows order L2 L3 L id l data lab' live =>
    exact ⟨{id} + M, by rw [live]; abel, fun w'' h1 h2 => .done cl' w'' rows order L2 L3 L id l data lab' h2⟩
  | early e cl' _ leak cause unt err live leaked =>
    exact ⟨leak + (ptrOwn cl.label + M), by rw [live]; abel, fun w'' h1 h2 => .early e cl' w'' leak cause unt (by rw [h1]; exact err) h2 leaked⟩
  | late e cl' _ L id l cause err search labels lt pos cap lab' live =>
    exact ⟨{id} + M, by rw [live]; abel, fun w'' h1 h2 => .late e cl' w'' L id l cause (by rw [h1]; exact err) search labels lt pos cap lab' h2⟩

theorem RunOutcome.congr {cfg : Cfg} {A : Criterion F} {dist : Nat → Nat → F} {w0 w : World} {n : Nat} {o : Options F} {m : SeedMethod} {P : List Nat} {lab c : Nat → Nat}
    {mayRefuse : Prop} {M : Multiset Nat} {cl : Clustering} {r : ErrorCode × Clustering} {w' : World} (h : RunOutcome cfg A dist w n o m P lab c mayRefuse M cl r w')
    (hw : w.fails = w0.fails) : RunOutcome cfg A dist w0 n o m P lab c mayRefuse M cl r w' := by
  cases h with
  | done cl' _ rows order L2 L3 L id l data lab' live =>
    refine .done cl' _ rows order L2 L3 L id l ?_ lab' live
    rwa [noFail_congr hw] at data
  | early e cl' _ leak cause unt err live leaked =>
    refine .early e cl' _ leak ?_ unt err live ?_
    · exact cause.imp (fun h => h.imp hw id id) id
    · rwa [noFail_congr hw] at leaked
  | late e cl' _ L id l cause err search labels lt pos cap lab' live => exact .late e cl' _ L id l (cause.imp hw _root_.id _root_.id) err search labels lt pos cap lab' live

theorem clusterByNng_spec {cfg : Cfg} (hcfg : cfg.Valid) {spi : Spi F} {n : Nat} {A : Criterion F} {dist : Nat → Nat → F} {mayRefuse : Prop} (hs : SpiOk spi n A dist mayRefuse)
    {o : Options F} {P : List Nat} {lab c : Nat → Nat} (hv : ValidOptions o n P) (ha : OptionArrays n o P lab c) (hlim : WithinLimits cfg n o c) (hpm : n ≤ cfg.pointMax) (m : SeedMethod)
    {cl : Clustering} (hcl : cl.n = n) (hlb : ∀ lb, cl.label = some lb → n ≤ lb.buf.len)
    {w : World} {M : Multiset Nat} (hlive : w.live = ptrOwn cl.label + M) (hu : w.UncheckedOk) :
    WpM (clusterByNng cfg spi cl o m) w fun r w' => w'.fails = w.fails ∧ RunOutcome cfg A dist w n o m P lab c mayRefuse M cl r w' := by
  have hnsz : n < cfg.sizeMax := by
    have h1 := hlim.size
    have h2 := hv.size_two
    have h3 := hv.size_le
    have : n * 2 ≤ n * o.sizeConstraint := Nat.mul_le_mul_left n h2
    omega
  unfold clusterByNng
  rw [wpM_bind, hcl]
  refine (buildNng_spec hs hv ha hlim hpm).mono ?_
  rintro (e | nng) w1 h1
  · dsimp only
    rw [wpM_pure]
    refine ⟨h1.fails, .early e cl w1 0 ?_ (Untouched.refl cl) h1.err (by rw [h1.live, hlive]; simp) (Or.inl rfl)⟩
    rcases h1.cause with h | ⟨rfl, h⟩ | h
    · exact Or.inl (h.imp rfl Or.inl id)
    · exact Or.inr (Or.inl ⟨rfl, Or.inl h⟩)
    · exact Or.inr (Or.inr h)
  · obtain ⟨f1, l1, hn, rows, hr, hnng, hne⟩ := h1
    dsimp only
    rw [wpM_bind]
    refine (clusteringFromNng_spec hcfg hs hv ha hnsz m hcl hlb hr hn hnng hne (M := M) (by rw [l1, hlive]) (hu.congr f1)).mono ?_
    rintro ⟨ec, cl', nng'⟩ w2 ⟨f2, M', rfl, h2⟩
    dsimp only at h2 ⊢
    obtain ⟨L, hL, hfree⟩ := h2.free
    rw [wpM_bind]
    refine freeDigraph_spec L hL fun w3 k1 k2 k3 => ?_
    rw [wpM_pure]
    exact ⟨by rw [k1, f2, f1], (hfree w3 k3 k2).congr f1⟩

end Scc
