/-
Estimating the radius and the call `scc_sc_clustering`, with assertions: the same as without.
-/
import Verif.Spec.Assert
import Verif.Proofs.AssertLabelsM
import Verif.Proofs.AssertBatches
import Verif.Proofs.BatchCall

set_option linter.unusedSimpArgs false
set_option linter.unusedVariables false

namespace Scc

variable {F : Type} [FloatOps F]

/-- The rows of the seeds have the size of a cluster, or one less when the seed itself is not stored. -/
def SeedLens (S : Nat) (rows : Nat → List Nat) (seeds : List Nat) : Prop := ∀ s ∈ seeds, S ≤ (rows s).length + 1

theorem estimateStepDbg_eq {cfg : Cfg} {spi : Spi F} {n S : Nat} {A : Criterion F} {dist : Nat → Nat → F} {mayRefuse : Prop} (hs : SpiOk spi n A dist mayRefuse)
    {sr : SeedResult} {nng : Digraph} {rows : Nat → List Nat} {seeds : List Nat} (hsr : sr.Holds seeds) (hr : nng.Repr cfg rows) (hn : nng.n = n)
    (hrow : SeedRows n S rows seeds) (hlow : SeedLens S rows seeds) {scratch : Nat} {w : World} {L : Multiset Nat} (hlive : w.live = {scratch} + L) (hsl : ∀ i ∈ ptrIds sr.seeds, i ∈ L)
    (hnl : ∀ i ∈ nng.ids, i ∈ L) {st : Nat × F × Buf F} (hst : S ≤ st.2.2.len) {i s : Nat} (hi : seeds[i]? = some s) :
    estimateStepDbg spi sr nng S scratch st i w = estimateStep spi sr nng scratch st i w := by
  have hsm : s ∈ seeds := List.mem_of_getElem? hi
  have hsn := hrow.range s hsm
  have hcsr : Csr n (ptrBuf nng.head) (ptrBuf nng.tail) rows := hn ▸ hr.csr
  have hLl : ∀ j, j ∈ L → j ∈ w.live := fun j hj => by rw [hlive]; exact Multiset.mem_add.2 (Or.inr hj)
  obtain ⟨sb, hsb1, -, hsb2⟩ := hsr.block
  have hlen : (rows s).length = S ∨ (rows s).length = S - 1 := by
    have h1 := hrow.le s hsm
    have h2 := hlow s hsm
    omega
  have hpos : 0 < (rows s).length := List.length_pos_iff.2 (hrow.pos s hsm)
  have harcs : seedArcs (ptrBuf sr.seeds) (ptrBuf nng.tail) i = some (s, off rows s, (rows s).length) := by
    unfold seedArcs
    have h1 : (ptrBuf sr.seeds).get i = some s := by rw [hsb1]; exact hsb2 i s hi
    rw [h1]
    simp only [Option.bind_eq_bind, Option.bind_some]
    rw [hcsr.tail_get (s + 1) (by omega), hcsr.tail_get s (by omega), show off rows (s + 1) = off rows s + (rows s).length from rfl]
    simp
  have hl0 : ∀ j ∈ ptrIds sr.seeds ++ nng.ids, j ∈ w.live := by
    intro j hj
    rcases List.mem_append.1 hj with hj | hj
    · exact hLl j (hsl j hj)
    · exact hLl j (hnl j hj)
  have hsc : ∀ j ∈ [scratch], j ∈ w.live := by intro j hj; simp at hj; subst hj; rw [hlive]; simp
  unfold estimateStepDbg estimateStep
  rw [useK_bind hl0 harcs, useK_bind hl0 harcs]
  dsimp only
  rw [asrtM_bind hlen, touch_bind hsc, touch_bind hsc]
  have hq : ArrHolds (some (⟨[], Buf.ofList [s]⟩ : Arr)) [s] := by
    intro i x hx
    obtain ⟨h1, -⟩ := List.getElem?_eq_some_iff.1 hx
    simp at h1
    subst h1
    simpa using hx
  have hcl : ArrHolds (some (⟨ptrIds nng.head, (ptrBuf nng.head).drop (off rows s)⟩ : Arr)) (rows s) := by
    intro j x hx
    show ((ptrBuf nng.head).drop (off rows s)).get j = some x
    rw [show ((ptrBuf nng.head).drop (off rows s)).get j = (ptrBuf nng.head).get (off rows s + j) from get_drop]
    exact hcsr.head_get s hsn j x hx
  refine mbind_eq rfl (hs.distRows 1 _ [s] (rows s).length _ (rows s) st.2.2 w hq rfl hcl rfl (by simpa using hsn) (hcsr.range s hsn) (by omega) hpos (by simp [arrIds])
    (fun j hj => hLl j (hnl j (by simp [Digraph.ids]; exact Or.inl (by simpa [arrIds] using hj)))) (by have := hrow.le s hsm; omega)) ?_
  rintro (_ | dists) w1 ⟨a1, a2, a3, a4⟩
  · rfl
  obtain ⟨b1, b2⟩ := a4
  dsimp only
  have hl1 : ∀ j ∈ scratch :: nng.ids, j ∈ w1.live := by
    intro j hj
    rw [a3]
    rcases List.mem_cons.1 hj with rfl | hj
    · rw [hlive]; simp
    · exact hLl j (hnl j hj)
  refine mbind_eq rfl (wpM_useK.2 ⟨hl1, (sumDists_spec (dist := dist) hcsr hsn (hrow.self s hsm) (fun j c hc => ?_)).mono fun a ha => ⟨rfl, ha⟩⟩ : WpM _ w1 fun a w' => w' = w1 ∧ _) ?_
  · have := b2 0 j s c rfl hc
    simpa using this
  · rintro ⟨tmp, cnt⟩ w2 ⟨rfl, hp⟩
    obtain ⟨-, rfl⟩ := Prod.mk.inj hp
    dsimp only
    rw [asrtM_bind hlen, asrtM_bind hpos]

theorem estimateAvgDbg_eq {cfg : Cfg} {spi : Spi F} {n S : Nat} {A : Criterion F} {dist : Nat → Nat → F} {mayRefuse : Prop} (hs : SpiOk spi n A dist mayRefuse) (hvalid : spi.valid = true)
    {sr : SeedResult} {nng : Digraph} {rows : Nat → List Nat} {seeds : List Nat} (hsr : sr.Holds seeds) (hr : nng.Repr cfg rows) (hn : nng.n = n) (he : off rows nng.n ≠ 0)
    (hrow : SeedRows n S rows seeds) (hlow : SeedLens S rows seeds) (hs0 : seeds ≠ []) (hS : 2 ≤ S) {w : World} (hsl : ∀ i ∈ ptrIds sr.seeds, i ∈ w.live) (hnl : ∀ i ∈ nng.ids, i ∈ w.live) :
    estimateAvgDbg cfg spi sr nng S w = estimateAvg spi sr nng S w := by
  have hcnt : 0 < sr.count := by rw [hsr.count]; exact List.length_pos_iff.2 hs0
  have hsome : sr.seeds.isSome = true := by obtain ⟨b, hb, -⟩ := hsr.block; rw [hb]; rfl
  have hstep : 0 < if 1000 < sr.count then sr.count / 1000 else 1 := by
    split
    · exact Nat.div_pos (by omega) (by omega)
    · exact Nat.one_pos
  unfold estimateAvgDbg estimateAvg
  rw [asrtM_bind hvalid, asrtM_bind (hs.numPoints.trans hn.symm), asrtM_bind hcnt, asrtM_bind hsome, asrtValid_bind hr hnl, asrtNonempty_bind hr he hnl, asrtM_bind hS, asrtM_bind hstep]
  refine mbind_eq rfl wpM_allocE ?_
  rintro (_ | b) w1 ⟨k1, k2, k3⟩
  · rfl
  dsimp only
  rw [hsr.count]
  have hin : ∀ i ∈ sampleIndices seeds.length, i < seeds.length := by
    obtain ⟨s, -, h, -⟩ := sampleIndices_eq seeds.length
    intro i hi
    rw [h] at hi
    exact List.mem_range.1 (List.mem_filter.1 hi).1
  refine mbind_same ?_
  refine foldBM_eq (fun pre st w' => w'.live = {b.id} + w.live ∧ S ≤ st.2.2.len) _ ⟨k2, by rw [k3 b rfl]; simp⟩ ?_
  rintro pre i post st w2 hsplit ⟨a2, a6⟩
  have hi := hin i (by rw [hsplit]; simp)
  have hx : seeds[i]? = some seeds[i] := List.getElem?_eq_getElem hi
  refine ⟨estimateStepDbg_eq hs hsr hr hn hrow hlow a2 hsl hnl a6 hx, (estimateStep_spec hs hsr hr hn hrow a2 hsl hnl a6 hx).mono ?_⟩
  rintro (st' | e) w3 ⟨b1, b2⟩
  · exact ⟨b2.1.trans a2, b2.2.2.2.2⟩
  · trivial

theorem estimateRadiiDbg_eq {cfg : Cfg} {spi : Spi F} {n S : Nat} {A : Criterion F} {dist : Nat → Nat → F} {mayRefuse : Prop} (hs : SpiOk spi n A dist mayRefuse) (hvalid : spi.valid = true)
    {sr : SeedResult} {nng : Digraph} {rows : Nat → List Nat} {seeds : List Nat} (hsr : sr.Holds seeds) (hr : nng.Repr cfg rows) (hn : nng.n = n) (he : off rows nng.n ≠ 0)
    (hrow : SeedRows n S rows seeds) (hlow : SeedLens S rows seeds) (hs0 : seeds ≠ []) (hS : 2 ≤ S) {r1 r2 : RadiusMethod × F} {w : World} (hsl : ∀ i ∈ ptrIds sr.seeds, i ∈ w.live)
    (hnl : ∀ i ∈ nng.ids, i ∈ w.live) :
    estimateRadiiDbg cfg spi sr nng S r1 r2 w = estimateRadii spi sr nng S r1 r2 w := by
  unfold estimateRadiiDbg estimateRadii
  by_cases h : r1.1 = .useEstimated ∨ r2.1 = .useEstimated
  · rw [if_pos h, if_pos h]
    exact mbind_same (estimateAvgDbg_eq hs hvalid hsr hr hn he hrow hlow hs0 hS hsl hnl)
  · rw [if_neg h, if_neg h]

/-- A radius with its method is one that the assertions accept. -/
def RadiusDone (r : RadiusMethod × F) : Prop := (r.1 = .noRadius ∨ r.1 = .useSupplied) ∧ (r.1 = .useSupplied → FloatOps.lt FloatOps.zero r.2 = true)

theorem useEstimate_done {o : Options F} (hsr : o.seedRadius = .noRadius ∨ o.seedRadius = .useSupplied) (hpos : o.seedRadius = .useSupplied → FloatOps.lt FloatOps.zero o.seedSupplied = true)
    {um : UnassignedMethod} {m : RadiusMethod} {r : F} (hm : m ≠ .unknown) (hr : m = .useSupplied → FloatOps.lt FloatOps.zero r = true) {avg : F} {p : RadiusMethod × F}
    (h : useEstimate avg (resolveRadius o um m r) = some p) : RadiusDone p := by
  unfold useEstimate resolveRadius at h
  unfold RadiusDone
  by_cases h1 : um = .ignore
  · simp [h1] at h
    subst h
    simp
  · rw [if_neg h1] at h
    by_cases h2 : m = .useSeedRadius
    · subst h2
      rw [if_pos rfl] at h
      have : p = (o.seedRadius, o.seedSupplied) := by rcases hsr with h' | h' <;> simp [h'] at h ⊢ <;> exact h.symm
      subst this
      exact ⟨hsr, hpos⟩
    · rw [if_neg h2] at h
      by_cases h3 : m = .useEstimated
      · subst h3
        rw [if_pos rfl] at h
        by_cases h4 : FloatOps.lt FloatOps.zero avg = true
        · rw [if_pos h4] at h
          cases h
          exact ⟨Or.inr rfl, fun _ => h4⟩
        · rw [if_neg h4] at h; simp at h
      · rw [if_neg h3] at h
        cases h
        refine ⟨?_, hr⟩
        cases m <;> simp_all

theorem estimateRadii_done {cfg : Cfg} {spi : Spi F} {n S : Nat} {A : Criterion F} {dist : Nat → Nat → F} {mayRefuse : Prop} (hs : SpiOk spi n A dist mayRefuse)
    {o : Options F} {P : List Nat} (hv : ValidOptions o n P) (hpr : PositiveRadii o)
    {sr : SeedResult} {nng : Digraph} {rows : Nat → List Nat} {seeds : List Nat} (hsr : sr.Holds seeds) (hr : nng.Repr cfg rows) (hn : nng.n = n)
    (hrow : SeedRows n S rows seeds) {w : World} {L : Multiset Nat} (hlive : w.live = ptrOwn sr.seeds + L) (hnl : ∀ i ∈ nng.ids, i ∈ w.live) :
    WpM (estimateRadii spi sr nng S (resolveRadius o o.primaryMethod o.primaryRadius o.primarySupplied) (resolveRadius o o.secondaryMethod o.secondaryRadius o.secondarySupplied)) w
      fun r w' => match r with
      | .error e => True
      | .ok (r1, r2) => w'.fails = w.fails ∧ w'.live = w.live ∧ RadiusDone r1 ∧ RadiusDone r2 := by
  have d1 : ∀ avg p, useEstimate avg (resolveRadius o o.primaryMethod o.primaryRadius o.primarySupplied) = some p → RadiusDone p :=
    fun avg p => useEstimate_done hv.seedRadius.1 hpr.seed hv.primaryRadius.1 hpr.primary
  have d2 : ∀ avg p, useEstimate avg (resolveRadius o o.secondaryMethod o.secondaryRadius o.secondarySupplied) = some p → RadiusDone p :=
    fun avg p => useEstimate_done hv.seedRadius.1 hpr.seed hv.secondaryRadius.1 hpr.secondary
  generalize resolveRadius o o.primaryMethod o.primaryRadius o.primarySupplied = r1 at *
  generalize resolveRadius o o.secondaryMethod o.secondaryRadius o.secondarySupplied = r2 at *
  have hsl : ∀ i ∈ ptrIds sr.seeds, i ∈ w.live := by
    obtain ⟨b, hb, -⟩ := hsr.block
    intro i hi
    rw [hlive, hb]
    rw [hb] at hi
    simp [ptrIds] at hi
    subst hi
    simp
  unfold estimateRadii
  by_cases huse : r1.1 = .useEstimated ∨ r2.1 = .useEstimated
  · rw [if_pos huse, wpM_bind]
    refine (estimateAvg_spec hs hsr hr hn hrow hsl hnl).mono ?_
    rintro (e | avg) w1 h
    · dsimp only
      rw [wpM_bind]
      refine wpM_freePtr L (by rw [h.live, hlive]) fun w2 k1 k2 k3 => ?_
      rw [wpM_pure]; trivial
    · obtain ⟨h1, h2, h3, rfl⟩ := h
      dsimp only
      cases hu1 : useEstimate (seedEstimate dist rows seeds) r1 with
      | none =>
        dsimp only
        rw [wpM_bind]
        refine wpM_freePtr L (by rw [h2, hlive]) fun w2 k1 k2 k3 => ?_
        exact wpM_fail fun w3 l1 l2 l3 => trivial
      | some r1' =>
        dsimp only
        cases hu2 : useEstimate (seedEstimate dist rows seeds) r2 with
        | none =>
          dsimp only
          rw [wpM_bind]
          refine wpM_freePtr L (by rw [h2, hlive]) fun w2 k1 k2 k3 => ?_
          exact wpM_fail fun w3 l1 l2 l3 => trivial
        | some r2' =>
          dsimp only
          rw [wpM_pure]
          exact ⟨h1, h2, d1 _ _ hu1, d2 _ _ hu2⟩
  · rw [if_neg huse, wpM_pure]
    push Not at huse
    exact ⟨rfl, rfl, d1 FloatOps.zero r1 (by unfold useEstimate; rw [if_neg huse.1]), d2 FloatOps.zero r2 (by unfold useEstimate; rw [if_neg huse.2])⟩

theorem clusteringFromNngDbg_eq {cfg : Cfg} (hcfg : cfg.Valid) {spi : Spi F} {n : Nat} {A : Criterion F} {dist : Nat → Nat → F} {mayRefuse : Prop} (hs : SpiOk spi n A dist mayRefuse)
    (hvalid : spi.valid = true) {o : Options F} {P : List Nat} {lab c : Nat → Nat} (hv : ValidOptions o n P) (hpr : PositiveRadii o) (ha : OptionArrays n o P lab c) (hnsz : n < cfg.sizeMax)
    (m : SeedMethod) {cl : Clustering} (hinit : cl.isInitialized cfg = true) (hcl : cl.n = n) (hlb : ∀ lb, cl.label = some lb → n ≤ lb.buf.len)
    {nng : Digraph} {rows : Nat → List Nat} (hr : nng.Repr cfg rows) (hn : nng.n = n) (hnng : NngStored cfg A n o P lab c rows) (hne : ∃ v < n, rows v ≠ [])
    {w : World} {M : Multiset Nat} (hlive : w.live = nng.own + (ptrOwn cl.label + M)) (hu : w.UncheckedOk) :
    clusteringFromNngDbg cfg spi cl nng o m w = clusteringFromNng cfg spi cl nng o m w := by
  subst hcl
  have hf := hnng.facts hv.size_two
  have hngl : ∀ i ∈ nng.ids, i ∈ w.live := mem_own_left hlive
  obtain ⟨v, hv1, hv2⟩ := hne
  obtain ⟨x, hx⟩ := List.exists_mem_of_ne_nil _ hv2
  have he : off rows nng.n ≠ 0 := off_ne_zero (hn.symm ▸ hv1) hx
  have hS := hv.size_two
  have hSn := hv.size_le
  have hn1 : 1 < nng.n := by omega
  unfold clusteringFromNngDbg clusteringFromNng
  rw [asrtM_bind hinit, asrtM_bind hvalid, asrtM_bind hs.numPoints, asrtValid_bind hr hngl, asrtNonempty_bind hr he hngl]
  refine mbind_eq (findSeedsDbg_eq m hr (fun v hv => (hf.nodup v (hn ▸ hv)).1) hngl hn1 (hn.symm ▸ hnsz) (Nat.add_pos_left Nat.one_pos _)
      ⟨v, x, hn.symm ▸ hv1, hx, fun h => (hf.nodup v hv1).2 (h ▸ hx)⟩ (fun _ => hu))
    (findSeeds_order_spec m (1 + cl.n / o.sizeConstraint) hr (fun _ v hv => (hf.nodup v (hn ▸ hv)).1) hngl (fun _ => hu)) ?_
  rintro (e | sr) w1 h1
  · rfl
  obtain ⟨order, hord, hperm, hinv⟩ := h1
  dsimp only
  rw [hn] at hperm hord
  have hsok := seedsOk_of_nng hf hperm
  have hrow := seedRows_of_nng hf hperm
  have hne' : greedySeeds rows order ≠ [] := greedySeeds_ne_nil (hperm.mem_iff.2 (List.mem_range.2 hv1)) hv2
  have hlow : SeedLens o.sizeConstraint rows (greedySeeds rows order) := fun s hs' => hf.low s (hsok.range s hs') (hrow.pos s hs')
  have hngl1 : ∀ i ∈ nng.ids, i ∈ w1.live := fun i hi => by rw [hinv.live]; exact Multiset.mem_add.2 (Or.inr (hngl i hi))
  obtain ⟨sb, hsb, -⟩ := hinv.holds.block
  have hsl1 : ∀ i ∈ ptrIds sr.seeds, i ∈ w1.live := by
    intro i hi
    rw [hinv.live, hsb]
    rw [hsb] at hi
    simp [ptrIds] at hi
    subst hi
    simp
  refine mbind_eq (estimateRadiiDbg_eq hs hvalid hinv.holds hr hn he hrow hlow hne' hS hsl1 hngl1) (estimateRadii_done hs hv hpr hinv.holds hr hn hrow hinv.live hngl1) ?_
  rintro (e | ⟨r1, r2⟩) w2 h2
  · rfl
  obtain ⟨f2, l2, ⟨e1, e2⟩, e3, e4⟩ := h2
  dsimp only
  rw [asrtM_bind e1, asrtM_bind e3]
  have hlive2 : w2.live = ptrOwn cl.label + (ptrOwn sr.seeds + nng.own + M) := by
    rw [l2, hinv.live, hlive]; abel
  refine mbind_eq rfl (ensureLabels_spec hlive2) ?_
  rintro ⟨ok, cl3⟩ w3 ⟨f3, h3⟩
  dsimp only at h3 ⊢
  rcases h3 with ⟨rfl, h3, h4, h5⟩ | ⟨rfl, lb, rfl, h5, h6, h7⟩
  · rw [if_pos (by rfl), if_pos (by rfl)]
  · rw [if_neg (by simp), if_neg (by simp)]
    have hlive3 : w3.live = nng.own + (ptrOwn sr.seeds + {lb.id} + M) := by rw [h5]; abel
    refine mbind_same (makeClustersDbg_eq hcfg hs hvalid (cl := { cl with label := some lb, external := cl.external && cl.label.isSome }) (lb := lb) (decide (o.numTypes < 2)) o.primaryMethod
      (decide (r1.1 = .useSupplied)) r1.2 o.secondaryMethod (decide (r2.1 = .useSupplied)) r2.2 (ptrOwn sr.seeds + {lb.id} + M) ?_ hv.secondaryMethod (fun h => e2 (of_decide_eq_true h))
      (fun h => e4 (of_decide_eq_true h)) ?_ he rfl rfl ?_ ?_ hinv.holds ?_ hsok hne' hinv.cap hr hn
      hf.nodup hlive3 (hv.primaryIs ha) hnsz (hu.congr (f3.trans (f2.trans hinv.fails))))
    · have := hv.primaryMethod
      cases h : o.primaryMethod <;> simp_all
    · obtain ⟨i1, i2, i3, i4, i5⟩ := isInitialized_iff.1 hinit
      exact isInitialized_iff.2 ⟨i1, i2, i3, i4, fun _ => nofun⟩
    · cases hl : cl.label with
      | none => rw [h7 hl]
      | some lb' => rw [← h6 lb' hl]; exact hlb lb' hl
    · simp
    · intro i hi
      rw [hsb] at hi ⊢
      simp [ptrIds] at hi
      subst hi
      simp

theorem buildNngDbg_eq {cfg : Cfg} {spi : Spi F} {n : Nat} {A : Criterion F} {dist : Nat → Nat → F} {mayRefuse : Prop} (hs : SpiOk spi n A dist mayRefuse) (hvalid : spi.valid = true)
    {o : Options F} {P : List Nat} {lab c : Nat → Nat} (hv : ValidOptions o n P) (hrad : o.seedRadius = .useSupplied → FloatOps.lt FloatOps.zero o.seedSupplied = true)
    (ha : OptionArrays n o P lab c) (hlim : WithinLimits cfg n o c) (hpm : n ≤ cfg.pointMax) {w : World} :
    buildNngDbg cfg spi n o w = buildNng cfg spi n o w := by
  have hpq := hv.primaryQ ha
  unfold buildNngDbg buildNng
  by_cases ht : o.numTypes < 2
  · rw [if_pos ht, if_pos ht]
    have hq : QueryInput w n (if (o.primary.map fun b => (⟨[], b⟩ : Arr)).isNone then n else o.lenPrimary) (o.primary.map fun b => ⟨[], b⟩) P :=
      ⟨hpq.holds, hpq.len, hpq.sorted, hpq.range, hpq.pos, by rw [hpq.ids]; simp, hpq.all⟩
    unfold nngWithSizeDbg nngWithSize
    exact mbind_same (nngSizeArcsDbg_eq hs hvalid (decide (o.seedRadius = .useSupplied)) o.seedSupplied (fun h => hrad (of_decide_eq_true h)) hpm hq hv.size_two hv.size_le hlim.size)
  · rw [if_neg ht, if_neg ht]
    have hT : 2 ≤ o.numTypes := by omega
    obtain ⟨hTm, tcs, htcs, labels, hlabels⟩ : o.numTypes ≤ 65535 ∧ ∃ tcs, o.typeConstraints = some tcs ∧ ∃ labels, o.typeLabels = some labels := by
      rcases hv.types with h | h
      · omega
      · obtain ⟨a, ha⟩ := Option.ne_none_iff_exists'.1 h.2.2.1
        obtain ⟨b, hb⟩ := Option.ne_none_iff_exists'.1 h.2.2.2.2
        exact ⟨h.2.1, a, ha, b, hb⟩
    have hti : TypeInput n o.numTypes tcs labels lab c :=
      ⟨fun v hv => (ha.labels labels hT hlabels v hv).1, fun v hv => (ha.labels labels hT hlabels v hv).2, ha.constraints tcs hT htcs⟩
    obtain ⟨l1, l2⟩ := hlim.types hT
    rw [asrtM_bind hTm, htcs, hlabels]
    unfold nngWithTypesDbg nngWithTypes
    exact mbind_same (nngTypeArcsDbg_eq hs hvalid hti hpq (decide (o.seedRadius = .useSupplied)) o.seedSupplied (fun h => hrad (of_decide_eq_true h)) hpm hT hTm
      (by rw [sumTo_eq_sum]; exact l2) l1 hv.size_two hv.size_le hlim.size)

theorem clusterByNngDbg_eq {cfg : Cfg} (hcfg : cfg.Valid) {spi : Spi F} {n : Nat} {A : Criterion F} {dist : Nat → Nat → F} {mayRefuse : Prop} (hs : SpiOk spi n A dist mayRefuse)
    (hvalid : spi.valid = true) {o : Options F} {P : List Nat} {lab c : Nat → Nat} (hv : ValidOptions o n P) (hpr : PositiveRadii o) (ha : OptionArrays n o P lab c) (hlim : WithinLimits cfg n o c)
    (m : SeedMethod) {cl : Clustering} (hinit : cl.isInitialized cfg = true) (hcl : cl.n = n) (hlb : ∀ lb, cl.label = some lb → n ≤ lb.buf.len)
    {w : World} {M : Multiset Nat} (hlive : w.live = ptrOwn cl.label + M) (hu : w.UncheckedOk) :
    clusterByNngDbg cfg spi cl o m w = clusterByNng cfg spi cl o m w := by
  have hpm : n ≤ cfg.pointMax := hcl ▸ (isInitialized_iff.1 hinit).2.2.1
  have hnsz : n < cfg.sizeMax := by
    have h1 := hlim.size
    have h2 := hv.size_two
    have h3 := hv.size_le
    have : n * 2 ≤ n * o.sizeConstraint := Nat.mul_le_mul_left n h2
    omega
  unfold clusterByNngDbg clusterByNng
  rw [hcl]
  refine mbind_eq (buildNngDbg_eq hs hvalid hv hpr.seed ha hlim hpm) (buildNng_spec hs hv ha hlim hpm) ?_
  rintro (e | nng) w1 h1
  · rfl
  obtain ⟨f1, l1, hn, rows, hr, hnng, hne⟩ := h1
  dsimp only
  have he : off rows nng.n ≠ 0 := by
    obtain ⟨v, hv1, hv2⟩ := hne
    obtain ⟨x, hx⟩ := List.exists_mem_of_ne_nil _ hv2
    exact off_ne_zero (hn.symm ▸ hv1) hx
  rw [asrtNonempty_bind hr he (mem_own_left l1)]
  exact mbind_same (clusteringFromNngDbg_eq hcfg hs hvalid hv hpr ha hnsz m hinit hcl hlb hr hn hnng hne (M := M) (by rw [l1, hlive]) (hu.congr f1))

/-- What follows the checks in `scc_sc_clustering`, with assertions. -/
def scAcceptedDbg (cfg : Cfg) (spi : Spi F) (o : Options F) (ob : ClObj) : M (ErrorCode × Option ClObj) :=
  match o.seedMethod with
  | .batches => do
    let (ec, cl) ← clusterBatchesDbg cfg spi ob.cl o.sizeConstraint o.primaryMethod (decide (o.seedRadius = .useSupplied)) o.seedSupplied
      o.lenPrimary o.primary o.batchSize
    touch [ob.id]
    pure (ec, some ⟨ob.id, cl⟩)
  | .method m => do
    let (ec, cl) ← clusterByNngDbg cfg spi ob.cl o m
    touch [ob.id]
    pure (ec, some ⟨ob.id, cl⟩)
  | .unknown => useK [] none

theorem scAcceptedDbg_eq {cfg : Cfg} {spi : Spi F} {A : Criterion F} {dist : Nat → Nat → F} {mayRefuse : Prop} {o : Options F} {ob : ClObj}
    (hs : SpiOk spi ob.cl.n A dist mayRefuse) {P : List Nat} {lab c : Nat → Nat} {w : World} (hc : CallOk cfg o ob P lab c w) (hpr : PositiveRadii o)
    (hfit : o.seedMethod = .batches → BatchFits o ob.cl.n) (hacc : Accepts cfg spi.valid spi.numPoints o ob.cl P) :
    scAcceptedDbg cfg spi o ob w = scAccepted cfg spi o ob w := by
  obtain ⟨M, hM⟩ := Multiset.le_iff_exists_add.1 hc.live
  have hlive : w.live = ptrOwn ob.cl.label + ({ob.id} + M) := by rw [hM]; abel
  unfold scAcceptedDbg scAccepted
  cases hm : o.seedMethod with
  | batches => exact mbind_same (clusterBatchesDbg_eq hc.config hs hacc.options hc.arrays hacc.initialized hpr.seed (hfit hm) hc.room hacc.empty hlive hc.unchecked)
  | method m => exact mbind_same (clusterByNngDbg_eq hc.config hs hacc.valid hacc.options hpr hc.arrays (hc.limits hacc.options) m hacc.initialized rfl hc.room hlive hc.unchecked)
  | unknown => rfl

theorem scClusteringDbg_eq {cfg : Cfg} {spi : Spi F} {A : Criterion F} {dist : Nat → Nat → F} {mayRefuse : Prop} {o : Options F} {ob : ClObj}
    (hs : SpiOk spi ob.cl.n A dist mayRefuse) {P : List Nat} {lab c : Nat → Nat} {w : World} (hc : CallOk cfg o ob P lab c w) (hpr : PositiveRadii o)
    (hfit : o.seedMethod = .batches → BatchFits o ob.cl.n) :
    scClusteringDbg cfg spi o (some ob) w = scClustering cfg spi o (some ob) w := by
  have hid : ob.id ∈ w.live := Multiset.mem_of_le hc.live (by simp)
  unfold scClusteringDbg scClustering
  have hini : WpM (isInitialized cfg (some ob)) w fun b w' => w' = w ∧ b = ob.cl.isInitialized cfg := by
    unfold isInitialized
    rw [wpM_bind]
    unfold touch
    rw [wpM_useK]
    refine ⟨by simpa using hid, ?_⟩
    rw [wp_some, wpM_pure]
    exact ⟨rfl, rfl⟩
  refine mbind_eq rfl hini ?_
  rintro b w' ⟨rfl, rfl⟩
  cases hi : ob.cl.isInitialized cfg with
  | false => dsimp only
  | true =>
    dsimp only
    cases hval : spi.valid with
    | false => simp only [Bool.not_false, ↓reduceIte]
    | true =>
      simp only [Bool.not_true, Bool.false_eq_true, ↓reduceIte]
      by_cases hnp : spi.numPoints ≠ ob.cl.n
      · rw [if_pos hnp, if_pos hnp]
      · rw [if_neg hnp, if_neg hnp]
        refine mbind_eq rfl (checkClusterOptions_spec hc.arrays w') ?_
        rintro e w1 ⟨f1, f2, ⟨rfl, rfl, hv⟩ | ⟨he, herr, hv, -⟩⟩
        · have hok : ¬ ErrorCode.ok ≠ ErrorCode.ok := by simp
          rw [if_neg hok, if_neg hok]
          by_cases hk : ob.cl.numClusters ≠ 0
          · rw [if_pos hk, if_pos hk]
          · rw [if_neg hk, if_neg hk]
            have := scAcceptedDbg_eq hs hc hpr hfit ⟨hi, hval, by simpa using hnp, hv, by simpa using hk⟩
            unfold scAcceptedDbg scAccepted at this
            exact this
        · rw [if_pos he, if_pos he]

end Scc
