/-
Properties of `scc_sc_clustering` with batches: C12-C14, C45, C46, and what C05, C08, C10, C33 and C42 say about batches.

See Props/Clustering.lean for `CallOk`, `SpiOk` and `OnSuccess`. `BatchFits` (Spec/Batches.lean) says that the size constraint times the number of points per batch is less than 2^32.
-/
import Verif.Proofs.BatchOk
import Verif.Proofs.Undefined
import Verif.Props.Clustering

set_option linter.unusedSimpArgs false
set_option linter.unusedVariables false

namespace Scc

variable {F : Type} [FloatOps F]

/-- A successful call follows the sequential algorithm. -/
theorem onSuccess_of_batches {cfg : Cfg} {spi : Spi F} {A : Criterion F} {dist : Nat → Nat → F} {mayRefuse : Prop} {o : Options F} {ob : ClObj}
    (hs : SpiOk spi ob.cl.n A dist mayRefuse) {P : List Nat} {lab c : Nat → Nat} {w : World} (hc : CallOk cfg o ob P lab c w) (hm : o.seedMethod = .batches) (hfit : BatchFits o ob.cl.n)
    {Q : Nat → Buf Int → Prop} (h : ∀ evs k l, ValidOptions o ob.cl.n P → (o.primaryMethod = .ignore ∨ o.primaryMethod = .anyNeighbor) → BatchRun cfg A ob.cl.n o P evs → k = (batchResult o evs).clusters.length → 0 < k → k ≤ cfg.clabelMax →
      LabelsAre cfg ob.cl.n l (batchResult o evs).label → Q k l) : OnSuccess cfg spi o ob w Q := by
  obtain ⟨⟨e, p⟩, w', h1, h2⟩ := scBatches_spec hs hc hm hfit
  refine ⟨e, p, w', h1, ?_⟩
  rintro rfl
  rcases h2 with h2 | ⟨hacc, hf, ⟨-, h2, -⟩ | ⟨hum, M, cl', hlive, hp, h2⟩⟩
  · exact absurd rfl h2.ne_ok
  · cases h2
  · dsimp only at hp
    cases h2 with
    | done _ _ evs id l run count pos cap labels labelled live =>
      refine ⟨hf, cl', ⟨id, l⟩, hp, ?_, ?_, ?_, labelled.initialized hacc.initialized cap, h evs _ _ hacc.options hum run count pos cap labels⟩
      · rw [labelled.eq]
      · rw [labelled.eq]
      · rw [live]; exact two_live hc.live hlive
    | failed _ _ _ cause err after => exact absurd rfl cause.ne_ok

theorem batch_labelsLt {cfg : Cfg} {A : Criterion F} {n : Nat} {o : Options F} {P : List Nat} {evs : List (Nat × Option (List Nat))} (h : BatchRun cfg A n o P evs) (hS : 0 < o.sizeConstraint) (hr : ∀ x ∈ P, x < n) :
    LabelsLt n (batchResult o evs).clusters.length (batchResult o evs).label := fun v i _ hi => (h.seqOk hS hr).label_lt hi

/-- C12. Batches meet the size constraint; when remaining points are ignored the clusters have exactly the required size. -/
theorem C12_batch_size_constraint {cfg : Cfg} {spi : Spi F} {A : Criterion F} {dist : Nat → Nat → F} {mayRefuse : Prop} {o : Options F} {ob : ClObj}
    (hs : SpiOk spi ob.cl.n A dist mayRefuse) {P : List Nat} {lab c : Nat → Nat} {w : World} (hc : CallOk cfg o ob P lab c w) (hm : o.seedMethod = .batches) (hfit : BatchFits o ob.cl.n) :
    OnSuccess cfg spi o ob w fun k b => 1 ≤ k ∧ ValidLabels cfg b ob.cl.n k ∧ ∀ i, i < k → o.sizeConstraint ≤ (members b ob.cl.n i).length ∧
      (o.primaryMethod = .ignore → (members b ob.cl.n i).length = o.sizeConstraint) := by
  refine onSuccess_of_batches hs hc hm hfit fun evs k l hv hum run count pos cap labels => ?_
  have hS : 0 < o.sizeConstraint := by have := hv.size_two; omega
  have hok := run.seqOk hS hc.arrays.range
  have hlt := batch_labelsLt run hS hc.arrays.range
  rw [← count] at hlt
  refine ⟨pos, labels.valid hlt, fun i hi => ?_⟩
  have hi' : i < (batchResult o evs).clusters.length := by omega
  have hci := List.getElem?_eq_getElem hi'
  obtain ⟨s1, s2, s3⟩ := hok.size _ (List.getElem_mem hi')
  have hsub : (batchResult o evs).clusters[i] ⊆ members l ob.cl.n i := fun x hx =>
    mem_members.2 ⟨s3 x hx, (labels.get_eq hc.config hlt cap (s3 x hx) hi).2 (hok.label_iff hci hx)⟩
  have hle : o.sizeConstraint ≤ (members l ob.cl.n i).length := by
    rw [← s1]; exact (List.subperm_of_subset s2 hsub).length_le
  refine ⟨hle, fun hig => Nat.le_antisymm ?_ hle⟩
  have hsub' : members l ob.cl.n i ⊆ (batchResult o evs).clusters[i] := by
    intro v hmem
    obtain ⟨hvn, hget⟩ := mem_members.1 hmem
    rcases label_cases ((labels.get_eq hc.config hlt cap hvn hi).1 hget) with ⟨c', h1, h2⟩ | ⟨-, h1⟩
    · rw [hci] at h1; simp only [Option.some.injEq] at h1; rw [h1]; exact h2
    · have := ((run.facts hS).joined v i h1).1
      simp [hig] at this
  rw [← s1]
  exact (List.subperm_of_subset nodup_members hsub').length_le

/-- The call returns "ok" for the six points on the line, in batches of four: clusters {0, 1} and {3, 4}. -/
example : OnSuccess sampleCfg (builtinSpi (some lineData)) (batchOpts .ignore 4) lineObj (sampleWorld [5]) (fun k b => 1 ≤ k ∧ ValidLabels sampleCfg b 6 k ∧ ∀ i, i < k →
      2 ≤ (members b 6 i).length ∧ (UnassignedMethod.ignore = UnassignedMethod.ignore → (members b 6 i).length = 2)) ∧
    ∃ cl b w', scClustering sampleCfg (builtinSpi (some lineData)) (batchOpts .ignore 4) (some lineObj) (sampleWorld [5]) = some ((.ok, some ⟨5, cl⟩), w') ∧
      cl.numClusters = 2 ∧ cl.label = some b ∧ b.buf.read 6 = some [0, 0, -2 ^ 31, 1, 1, -2 ^ 31] :=
  ⟨C12_batch_size_constraint lineSpi_ok (batch_call .ignore 4) rfl (batch_fits _ _), batch_run .ignore (Or.inl rfl) 4⟩

/-! ### C13: the batch size does not matter -/

theorem ValidOptions.batchSize {o : Options F} {n : Nat} {P : List Nat} (h : ValidOptions o n P) (bs : Nat) : ValidOptions { o with batchSize := bs } n P :=
  ⟨h.version, h.size_two, h.size_le, h.types, h.seed, h.primary, h.primaryMethod, h.secondaryMethod, h.seedRadius, h.primaryRadius, h.secondaryRadius, h.batches⟩

theorem CallOk.batchSize {cfg : Cfg} {o : Options F} {ob : ClObj} {P : List Nat} {lab c : Nat → Nat} {w : World} (h : CallOk cfg o ob P lab c w) (bs : Nat) :
    CallOk cfg { o with batchSize := bs } ob P lab c w :=
  ⟨h.config, h.live, h.room, ⟨h.arrays.all, h.arrays.primary, h.arrays.range, h.arrays.labels, h.arrays.constraints⟩,
    fun hv => ⟨(h.limits (hv.batchSize o.batchSize)).size, (h.limits (hv.batchSize o.batchSize)).types⟩, h.unchecked⟩

/-- C13. When the answer to a query does not depend on other queries, the outcome of the call, the number of clusters and the labels do not depend on the batch size. -/
theorem C13_batch_size_irrelevant {cfg : Cfg} {spi : Spi F} {A : Criterion F} {dist : Nat → Nat → F} {o : Options F} {ob : ClObj}
    (hs : SpiOk spi ob.cl.n A dist False) (hdet : ∀ set k R q a a', A set k R q a → A set k R q a' → a = a') {P : List Nat} {lab c : Nat → Nat} {w : World} (hc : CallOk cfg o ob P lab c w)
    (hm : o.seedMethod = .batches) (hw : w.NoFail) {b1 b2 : Nat} (hf1 : BatchFits { o with batchSize := b1 } ob.cl.n) (hf2 : BatchFits { o with batchSize := b2 } ob.cl.n) :
    ∃ e p1 w1 p2 w2, scClustering cfg spi { o with batchSize := b1 } (some ob) w = some ((e, p1), w1) ∧ scClustering cfg spi { o with batchSize := b2 } (some ob) w = some ((e, p2), w2) ∧
      (e = .ok → ∃ cl1 l1 cl2 l2, p1 = some ⟨ob.id, cl1⟩ ∧ cl1.label = some l1 ∧ p2 = some ⟨ob.id, cl2⟩ ∧ cl2.label = some l2 ∧ cl1.numClusters = cl2.numClusters ∧
        ∀ v, v < ob.cl.n → l1.buf.get v = l2.buf.get v ∧ (l1.buf.get v).isSome) := by
  classical
  have hl : ob.id ∈ w.live := by
    obtain ⟨M, hM⟩ := Multiset.le_iff_exists_add.1 hc.live
    rw [hM]; simp
  by_cases hacc : Accepts cfg spi.valid spi.numPoints o ob.cl P ∧ (o.primaryMethod = .ignore ∨ o.primaryMethod = .anyNeighbor)
  · obtain ⟨hacc, hum⟩ := hacc
    obtain ⟨f, hf⟩ : ∃ f : Nat → Option (List Nat), ∀ q a, A (List.range ob.cl.n) o.sizeConstraint (seedLimit o) q a → a = f q := by
      refine ⟨fun q => if h : ∃ a, A (List.range ob.cl.n) o.sizeConstraint (seedLimit o) q a then h.choose else none, fun q a ha => ?_⟩
      have hex : ∃ a, A (List.range ob.cl.n) o.sizeConstraint (seedLimit o) q a := ⟨a, ha⟩
      dsimp only
      rw [dif_pos hex]
      exact hdet _ _ _ _ _ _ ha hex.choose_spec
    have hacc' : ∀ bs, Accepts cfg spi.valid spi.numPoints { o with batchSize := bs } ob.cl P := fun bs => ⟨hacc.initialized, hacc.valid, hacc.points, hacc.options.batchSize bs, hacc.empty⟩
    obtain ⟨r1, w1, h1, h2⟩ := scBatches_functional hs (hc.batchSize b1) hm hf1 (hacc' b1) hum hw (f := f) hf
    obtain ⟨r2, w2, h3, h4⟩ := scBatches_functional hs (hc.batchSize b2) hm hf2 (hacc' b2) hum hw (f := f) hf
    dsimp only at h2 h4
    generalize seqRun (decide (o.primaryMethod = .ignore)) (P.map fun q => (q, (f q).map (stored cfg))) = st at h2 h4
    cases h2 with
    | ok cl1 l1 pos1 cap1 count1 label1 points1 labels1 =>
      cases h4 with
      | ok cl2 l2 pos2 cap2 count2 label2 points2 labels2 =>
        refine ⟨_, _, w1, _, w2, h1, h3, fun _ => ⟨cl1, l1, cl2, l2, rfl, label1, rfl, label2, by rw [count1, count2], fun v hv => ?_⟩⟩
        rw [labels1 v hv, labels2 v hv]
        exact ⟨rfl, rfl⟩
      | tooLarge p2 big => omega
      | noSeeds cl2 l2 none count label labels => rw [none] at pos1; simp at pos1
    | tooLarge p1 big =>
      cases h4 with
      | ok cl2 l2 pos2 cap2 count2 label2 points2 labels2 => omega
      | tooLarge p2 big' => exact ⟨_, _, w1, _, w2, h1, h3, nofun⟩
      | noSeeds cl2 l2 none count label labels => rw [none] at big; simp at big
    | noSeeds cl1 l1 none1 count1 label1 labels1 =>
      cases h4 with
      | ok cl2 l2 pos2 cap2 count2 label2 points2 labels2 => rw [none1] at pos2; simp at pos2
      | tooLarge p2 big => rw [none1] at big; simp at big
      | noSeeds cl2 l2 none count label labels => exact ⟨_, _, w1, _, w2, h1, h3, nofun⟩
  · -- rejected calls: the checks do not look at the batch size
    have hsame : ∀ bs, scClustering cfg spi { o with batchSize := bs } (some ob) w = scClustering cfg spi o (some ob) w := by
      intro bs
      unfold scClustering
      refine bind_eq_of ?_
      unfold isInitialized
      rw [wpM_bind]
      unfold touch
      rw [wpM_useK]
      refine ⟨by simpa using hl, ?_⟩
      rw [wp_some, wpM_pure]
      cases hinit : ob.cl.isInitialized cfg with
      | false => rfl
      | true =>
        dsimp only
        by_cases hval : (!spi.valid) = true
        · rw [if_pos hval, if_pos hval]
        · rw [if_neg hval, if_neg hval]
          by_cases hnp : spi.numPoints ≠ ob.cl.n
          · rw [if_pos hnp, if_pos hnp]
          · rw [if_neg hnp, if_neg hnp]
            show (checkClusterOptions o ob.cl.n >>= _) w = _
            refine bind_eq_of ((checkClusterOptions_spec hc.arrays w).mono ?_)
            rintro e w1 ⟨f1, f2, ⟨rfl, rfl, hv⟩ | ⟨he, herr, hv, hc⟩⟩
            · have hne : ¬ (ErrorCode.ok ≠ ErrorCode.ok) := by simp
              rw [if_neg hne, if_neg hne]
              by_cases hk : ob.cl.numClusters ≠ 0
              · rw [if_pos hk, if_pos hk]
              · rw [if_neg hk, if_neg hk]
                have ha : Accepts cfg spi.valid spi.numPoints o ob.cl P := ⟨hinit, by simpa using hval, by simpa using hnp, hv, by simpa using hk⟩
                have hum : o.primaryMethod ≠ .ignore ∧ o.primaryMethod ≠ .anyNeighbor := by
                  rw [← not_or]; exact fun h => hacc ⟨ha, h⟩
                simp only [hm]
                have : ∃ x, batchArgsError spi ob.cl o.sizeConstraint o.primaryMethod (decide (o.seedRadius = .useSupplied)) o.seedSupplied o.lenPrimary o.primary = some x := by
                  unfold batchArgsError
                  have h1 := hv.size_two
                  have h2 := hv.size_le
                  rw [if_neg (by simp [ha.valid]), if_neg (by simp [hs.numPoints]), if_neg (by omega), if_neg (by omega), if_pos hum]
                  exact ⟨_, rfl⟩
                obtain ⟨x, hx⟩ := this
                unfold clusterBatches
                rw [hx]
            · rw [if_pos he, if_pos he]
    obtain ⟨⟨e, p⟩, w', h1, h2⟩ := scBatches_spec hs (hc.batchSize b1) hm hf1
    refine ⟨e, p, w', p, w', h1, by rw [hsame b2, ← hsame b1]; exact h1, fun he => ?_⟩
    subst he
    exfalso
    rcases h2 with h2 | ⟨h2, -, ⟨-, h3, h4, -⟩ | ⟨h3, -⟩⟩
    · exact h2.ne_ok rfl
    · cases h3
    · exact hacc ⟨⟨h2.initialized, h2.valid, h2.points, h2.options.batchSize o.batchSize, h2.empty⟩, h3⟩

/-- Batches of one point and one batch of all points, for the six points on the line. -/
example : ∃ e p1 w1 p2 w2, scClustering sampleCfg (builtinSpi (some lineData)) (batchOpts .anyNeighbor 1) (some lineObj) (sampleWorld [5]) = some ((e, p1), w1) ∧
    scClustering sampleCfg (builtinSpi (some lineData)) (batchOpts .anyNeighbor 0) (some lineObj) (sampleWorld [5]) = some ((e, p2), w2) ∧
    (e = .ok → ∃ cl1 l1 cl2 l2, p1 = some ⟨5, cl1⟩ ∧ cl1.label = some l1 ∧ p2 = some ⟨5, cl2⟩ ∧ cl2.label = some l2 ∧ cl1.numClusters = cl2.numClusters ∧
      ∀ v, v < 6 → l1.buf.get v = l2.buf.get v ∧ (l1.buf.get v).isSome) :=
  C13_batch_size_irrelevant (o := batchOpts .anyNeighbor 0) lineSpi_ok (fun set k R q a a' h h' => h.trans h'.symm) (batch_call _ _) rfl (fun _ _ => rfl) (batch_fits _ 1) (batch_fits _ 0)

/-! ### C14: memory safety -/

/-- C14, restricted to size constraints and batches whose product is less than 2^32: the call has no undefined behaviour, and afterwards the heap holds the same blocks as before and possibly
a new label array. Missing: products of 2^32 or more, for which the claim is false (`C14_fails`). -/
theorem C14_batch_memory_safe_partial {cfg : Cfg} {spi : Spi F} {A : Criterion F} {dist : Nat → Nat → F} {mayRefuse : Prop} {o : Options F} {ob : ClObj}
    (hs : SpiOk spi ob.cl.n A dist mayRefuse) {P : List Nat} {lab c : Nat → Nat} {w : World} (hc : CallOk cfg o ob P lab c w) (hm : o.seedMethod = .batches) (hfit : BatchFits o ob.cl.n) :
    ∃ e cl' w', scClustering cfg spi o (some ob) w = some ((e, some ⟨ob.id, cl'⟩), w') ∧ cl'.n = ob.cl.n ∧ (∀ lb, cl'.label = some lb → ob.cl.n ≤ lb.buf.len) ∧
      ∃ M, w.live = ptrOwn ob.cl.label + M ∧ w'.live = ptrOwn cl'.label + M := by
  obtain ⟨⟨e, p⟩, w', h1, h2⟩ := scBatches_spec hs hc hm hfit
  obtain ⟨M0, hM0⟩ := Multiset.le_iff_exists_add.1 hc.live
  have hlive0 : w.live = ptrOwn ob.cl.label + ({ob.id} + M0) := by rw [hM0]; abel
  have key : ∀ k id l cl' , Labelled ob.cl k id l cl' → cl'.n = ob.cl.n ∧ (∀ lb, cl'.label = some lb → ob.cl.n ≤ lb.buf.len) ∧ ptrOwn cl'.label = {id} := by
    intro k id l cl' hl
    refine ⟨by rw [hl.eq], fun lb hlb => ?_, by rw [hl.eq]; simp [ptrOwn, ptrIds]⟩
    rw [hl.eq] at hlb
    simp only [Option.some.injEq] at hlb
    rw [← hlb]
    cases hlab : ob.cl.label with
    | none => exact (hl.new hlab).ge
    | some lb' => rw [(hl.old lb' hlab).2]; exact hc.room lb' hlab
  rcases h2 with h2 | ⟨hacc, -, ⟨-, h2, -, h3⟩ | ⟨-, M, cl', hlive, hp, h2⟩⟩
  · have := h2.same
    dsimp only at this
    subst this
    exact ⟨e, ob.cl, w', h1, rfl, hc.room, _, hlive0, by rw [h2.live]; exact hlive0⟩
  · cases h2
    exact ⟨_, ob.cl, w', h1, rfl, hc.room, _, hlive0, by rw [h3]; exact hlive0⟩
  · dsimp only at hp
    subst hp
    cases h2 with
    | done _ _ evs id l run count pos cap labels labelled live =>
      obtain ⟨k1, k2, k3⟩ := key _ _ _ _ labelled
      exact ⟨_, cl', w', h1, k1, k2, M, hlive, by rw [k3]; exact live⟩
    | failed _ _ _ cause err after =>
      rcases after with ⟨unt, live⟩ | ⟨id, l, labelled, live⟩
      · refine ⟨_, cl', w', h1, by rw [unt.flag], fun lb hlb => hc.room lb ?_, M, hlive, ?_⟩
        · rw [unt.flag] at hlb; exact hlb
        · rw [live, unt.flag]
      · obtain ⟨k1, k2, k3⟩ := key _ _ _ _ labelled
        exact ⟨_, cl', w', h1, k1, k2, M, hlive, by rw [k3]; exact live⟩
    | noSeeds _ _ evs id l run none err labels labelled live =>
      obtain ⟨k1, k2, k3⟩ := key _ _ _ _ labelled
      exact ⟨_, cl', w', h1, k1, k2, M, hlive, by rw [k3]; exact live⟩

example : ∃ e cl' w', scClustering sampleCfg (builtinSpi (some lineData)) (batchOpts .anyNeighbor 4) (some lineObj) (sampleWorld [5]) = some ((e, some ⟨5, cl'⟩), w') ∧ cl'.n = 6 ∧
    (∀ lb, cl'.label = some lb → 6 ≤ lb.buf.len) ∧ ∃ M, (sampleWorld [5]).live = ptrOwn lineObj.cl.label + M ∧ w'.live = ptrOwn cl'.label + M :=
  C14_batch_memory_safe_partial lineSpi_ok (batch_call _ _) rfl (batch_fits _ _)

/-- A data set of 65536 points. -/
def bigData : DataSet Int := ⟨dataSetVersion, 65536, 1, some (Buf.fill 65536 0)⟩

def bigOpts : Options Int := { (defaultOptions : Options Int) with sizeConstraint := 65536, seedMethod := .batches }

def bigObj : ClObj := ⟨5, clusteringVersion, 65536, 0, none, false⟩

theorem bigData_complete : bigData.Complete := by
  intro i hi
  have hi' : i < 65536 := by have : i < 65536 * 1 := hi; omega
  exact ⟨0, by simp [DataSet.buf, bigData, hi']⟩

/-- The first query of a search without radius needs room for its neighbours. -/
theorem nnSearchK_undefined {ds : DataSet F} {len lenQ k : Nat} {search queries : Option Arr} {radius : F} {out : OutQ} {dl : Buf F} {nn : Buf Nat} (hq : 0 < lenQ) (hk : 0 < k) (hnn : nn.len = 0) :
    nnSearchK ds len search lenQ queries k false radius out dl nn = none := by
  unfold nnSearchK
  have : ∀ {α β : Type} {x : Option α} {f : α → Option β}, x = none → (x >>= f) = none := by rintro α β x f rfl; rfl
  refine this (forLt_none hq ?_)
  dsimp only
  cases queryAt queries out (outQBuf queries out) 0 with
  | none => rfl
  | some query =>
    show (nnQuery _ _ _ _ _ _ _ _ _ _ >>= _) = none
    refine this ?_
    unfold nnQuery
    rw [if_neg (by simp)]
    refine this (forLt_none hk ?_)
    dsimp only
    cases idxGet search 0 with
    | none => rfl
    | some j =>
      show (sqDist ds query j >>= _) = none
      cases sqDist ds query j with
      | none => rfl
      | some d =>
        show addDist d j (0 * k) 0 dl nn = none
        unfold addDist
        have hset : nn.set (0 * k) j = none := by
          cases h : nn.set (0 * k) j with
          | none => rfl
          | some b => exact absurd ((Buf.wp_set (Q := fun _ => True)).1 ⟨b, h, trivial⟩).1 (by omega)
        cases dl.set 0 d with
        | none => rfl
        | some dl' => show (nn.set (0 * k) j >>= _) = none; exact this hset

/-- The loop over batches needs room for the answers to its first search. -/
theorem batchLoop_undefined {cfg : Cfg} {ds : DataSet F} {ob : (builtinSpi (some ds)).NN} {ids : BatchIds} {n m ll S bs : Nat} {ig : Bool} {radius : F} {batch out : Buf Nat} {labels : Buf Int} {w : World}
    (hn : n = m + 1) (hS : 0 < S) (hbs : 0 < bs) (hll : labels.len = ll) (hnl : n ≤ ll) (hb : bs ≤ batch.len) (hout : out.len = 0)
    (hids : ∀ i ∈ ids.batch :: ids.out :: ids.assigned :: ids.primary ++ ids.label, i ∈ w.live) (hw : w.NoFail) :
    batchLoop cfg (builtinSpi (some ds)) ob ids n S ig false radius none bs n 0 ⟨⟨Buf.fill n false, labels, 0⟩, batch, out, false⟩ w = none := by
  have hrep : BRep cfg n ll 0 SeqState.init ⟨Buf.fill n false, labels, 0⟩ := by
    refine ⟨rfl, Nat.zero_le _, le_refl _, hll, hnl, fun v hv => ?_, fun v hv hor => ?_⟩
    · simp [hv, SeqState.init, SeqState.Captured]
    · rcases hor with ⟨c, hc, -⟩ | h
      · simp [SeqState.init] at hc
      · omega
  have hfill := fillBatch_spec (primary := none) (p := fun _ => true) (bs := bs) (batch := batch) hrep (fun v hv => rfl) (by omega) hbs hb (fun v _ => rfl)
  subst hn
  rw [batchLoop.eq_def]
  dsimp only
  rw [if_pos (by omega)]
  refine none_bind ?_
  rw [wpM_useK]
  refine ⟨fun i hi => hids i ?_, hfill.mono ?_⟩
  · simp only [List.cons_append, List.mem_cons] at hi ⊢
    tauto
  · rintro ⟨labels', batch', inb, cur⟩ ⟨-, -, h1, h2, h3, h4, h5, -⟩
    dsimp only at h1 h2 h3 h4 h5 ⊢
    have hinb : inb ≠ 0 := by
      rw [← h5]
      have : 0 ∈ batchQueries SeqState.init (fun _ => true) 0 cur := by
        simp [batchQueries, SeqState.init, SeqState.Captured]; omega
      exact fun h => by rw [List.length_eq_zero_iff.1 h] at this; simp at this
    rw [if_neg hinb]
    refine none_bind ?_
    unfold touch
    rw [wpM_useK]
    refine ⟨fun i hi => hids i ?_, ?_⟩
    · simp only [List.cons_append, List.mem_cons, List.not_mem_nil, or_false] at hi ⊢
      tauto
    · rw [wp_some]
      refine none_bind_left ?_
      show nnSearch ds ob inb _ S false radius .same out w = none
      unfold nnSearch
      refine none_bind (wpM_allocN hw fun i w1 a1 a2 a3 => ?_)
      dsimp only
      exact none_bind_left (useK_none (nnSearchK_undefined (Nat.pos_of_ne_zero hinb) hS hout))

/-- Valid options that the code accepts, no failure of an allocation or search, and 65536 points in a cluster of 65536 points: the batch of 65536 * 65536 neighbours is
allocated with a size of zero, and the search writes out of bounds. -/
theorem C14_fails : bigData.Complete ∧ CallOk sampleCfg bigOpts bigObj (List.range 65536) (fun _ => 0) (fun _ => 0) (sampleWorld [5]) ∧ (sampleWorld [5]).NoFail ∧
    Accepts sampleCfg (builtinSpi (some bigData)).valid (builtinSpi (some bigData)).numPoints bigOpts bigObj.cl (List.range 65536) ∧
    scClustering sampleCfg (builtinSpi (some bigData)) bigOpts (some bigObj) (sampleWorld [5]) = none := by
  have hcall : CallOk sampleCfg bigOpts bigObj (List.range 65536) (fun _ => 0) (fun _ => 0) (sampleWorld [5]) :=
    ⟨sampleCfg_valid, by simp [bigObj, sampleWorld, ptrOwn, ptrIds], (by intro lb h; cases h), ⟨fun _ => rfl, nofun, fun x hx => List.mem_range.1 hx, nofun, nofun⟩,
      fun _ => ⟨by show 65536 * 65536 ≤ 2 ^ 64 - 1; decide, fun h => by simp [bigOpts, defaultOptions] at h⟩, fun _ => rfl⟩
  have hacc : Accepts sampleCfg (builtinSpi (some bigData)).valid (builtinSpi (some bigData)).numPoints bigOpts bigObj.cl (List.range 65536) :=
    ⟨by decide, by decide, by decide, ⟨rfl, by show 2 ≤ 65536; decide, by show 65536 ≤ 65536; decide, Or.inl ⟨by show 0 < 2; decide, rfl, rfl, rfl⟩, nofun, Or.inl ⟨rfl, rfl⟩, nofun, Or.inl rfl,
      ⟨Or.inl rfl, nofun, nofun⟩, ⟨nofun, nofun⟩, ⟨nofun, nofun⟩, fun _ => ⟨by show 0 < 2; decide, rfl, rfl⟩⟩, rfl⟩
  have hnf : (sampleWorld [5]).NoFail := fun _ _ => rfl
  refine ⟨bigData_complete, hcall, hnf, hacc, scClustering_accepted (by simp [bigObj, sampleWorld]) hcall.arrays hacc ?_⟩
  show (clusterBatches sampleCfg (builtinSpi (some bigData)) bigObj.cl 65536 .anyNeighbor false 0 0 none 0 >>= _) (sampleWorld [5]) = none
  refine none_bind_left ?_
  have hargs : batchArgsError (builtinSpi (some bigData)) bigObj.cl 65536 .anyNeighbor false 0 0 none = none := by decide
  unfold clusterBatches
  rw [hargs]
  dsimp only
  show (searchInit 65536 none >>= _) _ = none
  refine none_bind ?_
  unfold searchInit
  rw [wpM_bind]
  refine wpM_allocN hnf fun i0 w0 a1 a2 a3 => ?_
  dsimp only
  rw [wpM_pure]
  dsimp only
  have hnf0 : w0.NoFail := (noFail_congr a1).2 hnf
  refine none_bind (wpM_allocN hnf0 fun i1 w1 b1 b2 b3 => ?_)
  have hnf1 : w1.NoFail := (noFail_congr b1).2 hnf0
  refine none_bind (wpM_allocN hnf1 fun i2 w2 c1 c2 c3 => ?_)
  have hnf2 : w2.NoFail := (noFail_congr c1).2 hnf1
  refine none_bind (wpM_allocN hnf2 fun i3 w3 d1 d2 d3 => ?_)
  have hnf3 : w3.NoFail := (noFail_congr d1).2 hnf2
  dsimp only
  unfold batchesMain
  refine none_bind ?_
  show WpM (alloc _ >>= _) _ _
  rw [wpM_bind]
  refine wpM_allocN hnf3 fun i4 w4 e1 e2 e3 => ?_
  have hnf4 : w4.NoFail := (noFail_congr e1).2 hnf3
  rw [wpM_pure]
  simp only [Bool.not_true, Bool.false_eq_true, ↓reduceIte]
  refine none_bind ?_
  show WpM (pure none) _ _
  rw [wpM_pure]
  refine none_bind_left ?_
  unfold runBatches
  refine none_bind_left ?_
  refine batchLoop_undefined (m := 65535) (ll := 65536) rfl (by decide) (by decide) rfl (le_refl _) (le_refl _) (by decide) ?_ hnf4
  intro i hi
  rw [e2, d2, c2, b2]
  simp only [List.cons_append, List.mem_cons, ptrIds, List.not_mem_nil, List.nil_append, or_false] at hi
  simp only [Multiset.mem_add, Multiset.mem_singleton]
  tauto

/-! ### Assignment and radius -/

/-- C05 for batches: without a radius, every primary point is assigned when remaining points join the cluster of a neighbour. -/
theorem C05_primary_assigned_batches {cfg : Cfg} {spi : Spi F} {A : Criterion F} {dist : Nat → Nat → F} {mayRefuse : Prop} {o : Options F} {ob : ClObj}
    (hs : SpiOk spi ob.cl.n A dist mayRefuse) {P : List Nat} {lab c : Nat → Nat} {w : World} (hc : CallOk cfg o ob P lab c w) (hm : o.seedMethod = .batches) (hfit : BatchFits o ob.cl.n)
    (h1 : o.seedRadius = .noRadius) (h2 : o.primaryMethod = .anyNeighbor) :
    OnSuccess cfg spi o ob w fun k b => ∀ v ∈ P, ∃ i, i < k ∧ v ∈ members b ob.cl.n i := by
  refine onSuccess_of_batches hs hc hm hfit fun evs k l hv hum run count pos cap labels v hvP => ?_
  have hS : 0 < o.sizeConstraint := by have := hv.size_two; omega
  have hok := run.seqOk hS hc.arrays.range
  have hlt := batch_labelsLt run hS hc.arrays.range
  rw [← count] at hlt
  have hvn := hc.arrays.range v hvP
  have hlab : ((batchResult o evs).label v).isSome := by
    unfold SeqState.label
    rw [Option.isSome_or]
    rcases (run.facts hS).covered v hvP with h | h | ⟨a, -, -, h⟩
    · rw [captured_iff.1 h]; rfl
    · exact absurd rfl (h.2.1 (by simp [seedLimit, h1]))
    · rw [h (by simp [h2])]; simp
  obtain ⟨i, hi⟩ := Option.isSome_iff_exists.1 hlab
  have hik := hlt v i hvn hi
  exact ⟨i, hik, mem_members.2 ⟨hvn, (labels.get_eq hc.config hlt cap hvn hik).2 hi⟩⟩

example : OnSuccess sampleCfg (builtinSpi (some lineData)) (batchOpts .anyNeighbor 4) lineObj (sampleWorld [5]) (fun k b => ∀ v ∈ List.range 6, ∃ i, i < k ∧ v ∈ members b 6 i) ∧
    ∃ cl b w', scClustering sampleCfg (builtinSpi (some lineData)) (batchOpts .anyNeighbor 4) (some lineObj) (sampleWorld [5]) = some ((.ok, some ⟨5, cl⟩), w') ∧
      cl.numClusters = 2 ∧ cl.label = some b ∧ b.buf.read 6 = some [0, 0, 0, 1, 1, 1] :=
  ⟨C05_primary_assigned_batches lineSpi_ok (batch_call _ _) rfl (batch_fits _ _) rfl rfl, batch_run .anyNeighbor (Or.inr rfl) 4⟩

/-- The clusters of a run in batches: there is a primary point (the seed) and a list of nearest points for each cluster. `core i` are the points of the seed and its neighbours. -/
structure BatchClusters (le : Nat → Nat → Nat → Prop) (within : Nat → Nat → F → Prop) (o : Options F) (n : Nat) (P : List Nat) (k : Nat) (b : Buf Int) (core : Nat → List Nat) : Prop where
  /-- the core of a cluster is a primary point and the `S - 1` points nearest to it, within the seed radius -/
  seed : ∀ i, i < k → ∃ s ∈ P, s ∈ core i ∧ (core i).length = o.sizeConstraint ∧ (core i).Nodup ∧ (∀ x ∈ core i, x < n ∧ b.get x = some (i : Int)) ∧
    (∀ x ∈ core i, x ≠ s → (∀ y, y < n → y ∉ core i → le s x y) ∧ (o.seedRadius = .useSupplied → within s x o.seedSupplied))
  /-- other members are primary points with a point of the core among their nearest points -/
  other : ∀ i, i < k → ∀ v ∈ members b n i, v ∉ core i → o.primaryMethod = .anyNeighbor ∧ v ∈ P ∧ ∃ x ∈ core i, ∃ a : List Nat, x ∈ a ∧ a.length = o.sizeConstraint ∧ a.Nodup ∧
    (∀ y ∈ a, y < n) ∧ (∀ y ∈ a, ∀ z, z < n → z ∉ a → le v y z) ∧ (o.seedRadius = .useSupplied → ∀ y ∈ a, within v y o.seedSupplied)

theorem Stored.of_none {cfg : Cfg} {A : Criterion F} {set : List Nat} {k q : Nat} {R : Option F} (h : Stored cfg A set k R q none) : A set k R q none := by
  obtain ⟨a₀, ha₀, hst⟩ := h
  cases a₀ with
  | none => exact ha₀
  | some l => cases hst

theorem Stored.of_some {cfg : Cfg} {A : Criterion F} {set : List Nat} {k q : Nat} {R : Option F} {a : List Nat} (h : Stored cfg A set k R q (some a)) :
    ∃ l, A set k R q (some l) ∧ a = stored cfg l := by
  obtain ⟨a₀, ha₀, hst⟩ := h
  cases a₀ with
  | none => cases hst
  | some l => exact ⟨l, ha₀, by simpa using hst⟩

theorem le_of_seedCluster {le : Nat → Nat → Nat → Prop} {within : Nat → Nat → F → Prop} {cfg : Cfg} {n S s x y : Nat} {R : Option F} {a : List Nat}
    (h : AnswerOk (Stored cfg (Nearest le within)) n S R s (some a)) (hs : s < n) (hself : cfg.stableNng = true → ∀ x < n, ∀ y < n, le s x s → le s x y)
    (hx : x ∈ seedCluster s a) (hxs : x ≠ s) (hy : y < n) (hyn : y ∉ seedCluster s a) : le s x y := by
  obtain ⟨hst, hwf⟩ := h
  obtain ⟨l, ha₀, rfl⟩ := hst.of_some
  obtain ⟨-, hpw, hle⟩ := ha₀
  obtain ⟨-, hnd, hsub⟩ := hwf.2 _ rfl
  generalize ha : stored cfg l = a at *
  have hal : ∀ x, x ∈ a ↔ x ∈ l := fun x => by rw [← ha, mem_stored]
  rw [mem_seedCluster hnd] at hx hyn
  have hxa : x ∈ a := by
    rcases hx with h | h | ⟨-, h⟩
    · exact List.dropLast_subset _ h
    · exact absurd h hxs
    · exact h
  by_cases hya : y ∈ a
  · -- `y` is the last point of the answer, which the seed replaced
    push Not at hyn
    obtain ⟨h1, h2, h3⟩ := hyn
    have hsa : s ∉ a.dropLast := fun h => h3 h hya
    have hxd : x ∈ a.dropLast := by
      rcases hx with h | h | ⟨h, -⟩
      · exact h
      · exact absurd h hxs
      · exact absurd h hsa
    have hne : a ≠ [] := List.ne_nil_of_mem hya
    have hsplit := List.dropLast_append_getLast hne
    have hyl : y = a.getLast hne := by
      rw [← hsplit] at hya
      rcases List.mem_append.1 hya with h | h
      · exact absurd h h1
      · simpa using h
    by_cases hon : cfg.stableNng = true
    · -- the seed is not in the answer, so the answer has no points farther away than the seed
      have hsl : s ∉ a := by
        intro hsa'
        rw [← hsplit] at hsa'
        rcases List.mem_append.1 hsa' with h | h
        · exact hsa h
        · exact h2 (hyl.trans (List.mem_singleton.1 h).symm)
      exact hself hon x (List.mem_range.1 (hsub hxa)) y hy (hle x ((hal x).1 hxa) s (List.mem_range.2 hs) fun h => hsl ((hal s).2 h))
    · rw [stored_off (by simpa using hon)] at ha
      subst ha
      rw [← hsplit] at hpw
      rw [hyl]
      exact (List.pairwise_append.1 hpw).2.2 x hxd _ (by simp)
  · exact hle x ((hal x).1 hxa) y (List.mem_range.2 hy) fun h => hya ((hal y).2 h)

/-- C45, and C08 for batches. Each cluster consists of a primary point with its nearest points and, with `SCC_UM_ANY_NEIGHBOR`, of primary points that have one of these points among their
nearest points. All these neighbours are within the seed radius. (The last hypothesis is only about builds with `SCC_STABLE_NNG`, and it holds for every distance: a point at distance zero
is a nearest point.) -/
theorem C45_batch_clusters {cfg : Cfg} {spi : Spi F} {le : Nat → Nat → Nat → Prop} {within : Nat → Nat → F → Prop} {dist : Nat → Nat → F} {mayRefuse : Prop} {o : Options F} {ob : ClObj}
    (hs : SpiOk spi ob.cl.n (Nearest le within) dist mayRefuse) {P : List Nat} {lab c : Nat → Nat} {w : World} (hc : CallOk cfg o ob P lab c w) (hm : o.seedMethod = .batches)
    (hfit : BatchFits o ob.cl.n) (hself : cfg.stableNng = true → ∀ s < ob.cl.n, ∀ x < ob.cl.n, ∀ y < ob.cl.n, le s x s → le s x y) :
    OnSuccess cfg spi o ob w fun k b => ∃ core, BatchClusters le within o ob.cl.n P k b core := by
  refine onSuccess_of_batches hs hc hm hfit fun evs k l hv hum run count pos cap labels => ⟨fun i => (batchResult o evs).clusters.getD i [], fun i hi => ?_, fun i hi v hmem hcore => ?_⟩
  all_goals
    have hS : 0 < o.sizeConstraint := by have := hv.size_two; omega
    have hok := run.seqOk hS hc.arrays.range
    have hlt := batch_labelsLt run hS hc.arrays.range
    rw [← count] at hlt
    have hi' : i < (batchResult o evs).clusters.length := by omega
    have hci := List.getElem?_eq_getElem hi'
    have hgd : (batchResult o evs).clusters.getD i [] = (batchResult o evs).clusters[i] := by simp [hi']
  · obtain ⟨s1, s2, s3⟩ := hok.size _ (List.getElem_mem hi')
    obtain ⟨s, a, h1, h2, h3⟩ := (run.facts hS).seeds _ (List.getElem_mem hi')
    rw [hgd]
    refine ⟨s, h1, by rw [h3]; simp [seedCluster], s1, s2, fun x hx => ⟨s3 x hx, (labels.get_eq hc.config hlt cap (s3 x hx) hi).2 (hok.label_iff hci hx)⟩, fun x hx hxs => ⟨fun y hy hyn => ?_, fun hr => ?_⟩⟩
    · rw [h3] at hx hyn
      exact le_of_seedCluster h2 (hc.arrays.range s h1) (fun hon => hself hon s (hc.arrays.range s h1)) hx hxs hy hyn
    · rw [h3] at hx
      obtain ⟨l, ha₀, rfl⟩ := h2.1.of_some
      exact ha₀.1 _ (by simp [seedLimit, hr]) x (mem_stored.1 ((seedCluster_subset hx).resolve_left hxs))
  · obtain ⟨hvn, hget⟩ := mem_members.1 hmem
    rw [hgd] at hcore
    rcases label_cases ((labels.get_eq hc.config hlt cap hvn hi).1 hget) with ⟨c', h1, h2⟩ | ⟨-, h1⟩
    · rw [hci] at h1; simp only [Option.some.injEq] at h1; rw [h1] at hcore; exact absurd h2 hcore
    · obtain ⟨h2, h3, a, x, c', h4, h5, h6, h7⟩ := (run.facts hS).joined v i h1
      rw [hci, Option.some.injEq] at h6
      obtain ⟨q1, q2, q3⟩ := h4.2.2 a rfl
      obtain ⟨l, ha₀, rfl⟩ := h4.1.of_some
      refine ⟨?_, h3, x, by rw [hgd, h6]; exact h7, stored cfg l, h5, q1, q2, fun y hy => List.mem_range.1 (q3 hy),
        fun y hy z hz hza => ha₀.2.2 y (mem_stored.1 hy) z (List.mem_range.2 hz) fun h => hza (mem_stored.2 h),
        fun hr y hy => ha₀.1 _ (by simp [seedLimit, hr]) y (mem_stored.1 hy)⟩
      exact hum.resolve_left (by simpa using h2)

example : OnSuccess sampleCfg (builtinSpi (some lineData)) (batchOpts .anyNeighbor 4) lineObj (sampleWorld [5])
    fun k b => ∃ core, BatchClusters lineData.NoFarther lineData.Within (batchOpts .anyNeighbor 4) 6 (List.range 6) k b core :=
  C45_batch_clusters lineSpi_nearest (batch_call _ _) rfl (batch_fits _ _) nofun

/-- C46. After a successful run in batches, a primary point without cluster has too few points within the seed radius, or points that are not assigned are ignored and one of its nearest
points was captured by a seed. -/
theorem C46_batch_unassigned {cfg : Cfg} {spi : Spi F} {le : Nat → Nat → Nat → Prop} {within : Nat → Nat → F → Prop} {dist : Nat → Nat → F} {mayRefuse : Prop} {o : Options F} {ob : ClObj}
    (hs : SpiOk spi ob.cl.n (Nearest le within) dist mayRefuse) {P : List Nat} {lab c : Nat → Nat} {w : World} (hc : CallOk cfg o ob P lab c w) (hm : o.seedMethod = .batches)
    (hfit : BatchFits o ob.cl.n) : OnSuccess cfg spi o ob w fun k b => ∀ v ∈ P, Unassigned cfg b v →
      o.seedRadius = .useSupplied ∧ ¬ EnoughWithin within ob.cl.n o.sizeConstraint v o.seedSupplied ∨
      o.primaryMethod = .ignore ∧ ∃ a : List Nat, a.length = o.sizeConstraint ∧ a.Nodup ∧ (∀ y ∈ a, y < ob.cl.n) ∧ (∀ y ∈ a, ∀ z, z < ob.cl.n → z ∉ a → le v y z) ∧
        ∃ x ∈ a, ∃ i, i < k ∧ x ∈ members b ob.cl.n i := by
  refine onSuccess_of_batches hs hc hm hfit fun evs k l hv hum run count pos cap labels v hvP hna => ?_
  have hS : 0 < o.sizeConstraint := by have := hv.size_two; omega
  have hok := run.seqOk hS hc.arrays.range
  have hlt := batch_labelsLt run hS hc.arrays.range
  rw [← count] at hlt
  have hvn := hc.arrays.range v hvP
  have hnone := (labels.unassigned_iff hc.config hlt cap hvn).1 hna
  unfold SeqState.label at hnone
  rw [Option.or_eq_none_iff] at hnone
  rcases (run.facts hS).covered v hvP with h | h | ⟨a, h1, ⟨x, h2, h3⟩, h4⟩
  · rw [captured_iff, hnone.1] at h; cases h
  · left
    obtain ⟨r, hr, hfew⟩ := h.1.of_none
    have hus : o.seedRadius = .useSupplied := by
      by_contra hne
      simp [seedLimit, hne] at hr
    refine ⟨hus, ?_⟩
    rintro ⟨l', q1, q2, q3⟩
    rw [seedLimit, if_pos hus, Option.some.injEq] at hr
    subst hr
    have := hfew l' q1 (fun x hx => List.mem_range.2 (q3 x hx).1) fun x hx => (q3 x hx).2
    omega
  · right
    obtain ⟨q1, q2, q3⟩ := h1.2.2 a rfl
    have hig : o.primaryMethod = .ignore := by
      by_contra hne
      have := h4 (by simpa using hne)
      rw [hnone.2] at this; cases this
    obtain ⟨l', ha₀, rfl⟩ := h1.1.of_some
    refine ⟨hig, stored cfg l', q1, q2, fun y hy => List.mem_range.1 (q3 hy),
      fun y hy z hz hza => ha₀.2.2 y (mem_stored.1 hy) z (List.mem_range.2 hz) fun h => hza (mem_stored.2 h), x, h2, ?_⟩
    obtain ⟨i, hi⟩ := Option.isSome_iff_exists.1 (captured_iff.1 h3)
    have hlab : (batchResult o evs).label x = some i := by unfold SeqState.label; rw [hi]; rfl
    have hxn := List.mem_range.1 (q3 h2)
    have hik := hlt x i hxn hlab
    exact ⟨i, hik, mem_members.2 ⟨hxn, (labels.get_eq hc.config hlt cap hxn hik).2 hlab⟩⟩

/-- Point 2 of the line is ignored, see `batch_run`. -/
example : OnSuccess sampleCfg (builtinSpi (some lineData)) (batchOpts .ignore 4) lineObj (sampleWorld [5]) fun k b => ∀ v ∈ List.range 6, Unassigned sampleCfg b v →
      (batchOpts .ignore 4).seedRadius = .useSupplied ∧ ¬ EnoughWithin lineData.Within 6 2 v 0 ∨
      UnassignedMethod.ignore = .ignore ∧ ∃ a : List Nat, a.length = 2 ∧ a.Nodup ∧ (∀ y ∈ a, y < 6) ∧ (∀ y ∈ a, ∀ z, z < 6 → z ∉ a → lineData.NoFarther v y z) ∧
        ∃ x ∈ a, ∃ i, i < k ∧ x ∈ members b 6 i :=
  C46_batch_unassigned lineSpi_nearest (batch_call _ _) rfl (batch_fits _ _)

/-- C42 for batches: "no solution" means that there are fewer points than the size constraint, or that there is a radius and no primary point has enough points within it. In these cases the
call does not succeed. -/
theorem C42_no_solution_batches {cfg : Cfg} {spi : Spi F} {le : Nat → Nat → Nat → Prop} {within : Nat → Nat → F → Prop} {dist : Nat → Nat → F} {mayRefuse : Prop} {o : Options F} {ob : ClObj}
    (hs : SpiOk spi ob.cl.n (Nearest le within) dist mayRefuse) {P : List Nat} {lab c : Nat → Nat} {w : World} (hc : CallOk cfg o ob P lab c w) (hm : o.seedMethod = .batches)
    (hfit : BatchFits o ob.cl.n) :
    ∃ e p w', scClustering cfg spi o (some ob) w = some ((e, p), w') ∧
      (e = .noSolution → ob.cl.n < o.sizeConstraint ∨ o.seedRadius = .useSupplied ∧ ∀ v ∈ P, ¬ EnoughWithin within ob.cl.n o.sizeConstraint v o.seedSupplied) ∧
      (o.seedRadius = .useSupplied → (∀ v ∈ P, ¬ EnoughWithin within ob.cl.n o.sizeConstraint v o.seedSupplied) → e ≠ .ok) := by
  obtain ⟨⟨e, p⟩, w', h1, h2⟩ := scBatches_spec hs hc hm hfit
  refine ⟨e, p, w', h1, fun he => ?_, fun hr hno he => ?_⟩
  · subst he
    rcases h2 with h2 | ⟨hacc, -, ⟨-, h2, -⟩ | ⟨-, M, cl', hlive, hp, h2⟩⟩
    · rcases h2.cause with ⟨h, -⟩ | ⟨-, ⟨h, -⟩ | ⟨-, h⟩ | ⟨h, -⟩ | ⟨h, -⟩⟩ | ⟨h, -⟩
      · cases h
      · cases h
      · exact Or.inl h
      · cases h
      · cases h
      · cases h
    · cases h2
    · right
      have hS : 0 < o.sizeConstraint := by have := hacc.options.size_two; omega
      cases h2 with
      | failed _ _ _ cause err after => rcases cause with ⟨h, -⟩ | ⟨h, -⟩ | ⟨h, -⟩ <;> cases h
      | noSeeds _ _ evs id l run none err labels labelled live =>
        have hnc : ∀ x, ¬ (batchResult o evs).Captured x := fun x hx => by
          obtain ⟨c', hc', -⟩ := hx
          rw [none] at hc'; simp at hc'
        have key : ∀ v ∈ P, ∃ r, seedLimit o = some r ∧ ¬ EnoughWithin within ob.cl.n o.sizeConstraint v r := by
          intro v hv
          rcases (run.facts hS).covered v hv with h | h | ⟨a, h1, ⟨x, h2, h3⟩, h4⟩
          · exact absurd h (hnc v)
          · obtain ⟨r, hr, hfew⟩ := h.1.of_none
            refine ⟨r, hr, ?_⟩
            rintro ⟨l', q1, q2, q3⟩
            have := hfew l' q1 (fun x hx => List.mem_range.2 (q3 x hx).1) fun x hx => (q3 x hx).2
            omega
          · exact absurd h3 (hnc x)
        have hP : P ≠ [] := by
          have hv := hacc.options
          rcases hv.primary with ⟨h, -⟩ | ⟨h, h', -⟩
          · rw [hc.arrays.all h]
            have := hv.size_le
            intro hnil
            have := congrArg List.length hnil
            simp at this; omega
          · cases hpr : o.primary with
            | none => exact absurd hpr h
            | some b =>
              have := (hc.arrays.primary b hpr).1
              intro hnil
              rw [hnil] at this
              simp at this; omega
        obtain ⟨v0, hv0⟩ := List.exists_mem_of_ne_nil P hP
        have hus : o.seedRadius = .useSupplied := by
          by_contra hne
          obtain ⟨r, hr, -⟩ := key v0 hv0
          simp [seedLimit, hne] at hr
        refine ⟨hus, fun v hv => ?_⟩
        obtain ⟨r, hr, h⟩ := key v hv
        rw [seedLimit, if_pos hus, Option.some.injEq] at hr
        rw [hr]; exact h
  · subst he
    rcases h2 with h2 | ⟨hacc, -, ⟨-, h2, -⟩ | ⟨-, M, cl', hlive, hp, h2⟩⟩
    · exact h2.ne_ok rfl
    · cases h2
    · have hS : 0 < o.sizeConstraint := by have := hacc.options.size_two; omega
      cases h2 with
      | done _ _ evs id l run count pos cap labels labelled live =>
        obtain ⟨c', hc'⟩ := List.exists_mem_of_ne_nil _ (List.length_pos_iff.1 (by rw [← count]; exact pos))
        obtain ⟨s, a, q1, q2, -⟩ := (run.facts hS).seeds c' hc'
        obtain ⟨r1, r2, r3⟩ := q2.2.2 a rfl
        obtain ⟨l', ha₀, rfl⟩ := q2.1.of_some
        exact hno s q1 ⟨_, r2, r1, fun x hx => ⟨List.mem_range.1 (r3 hx), ha₀.1 _ (by simp [seedLimit, hr]) x (mem_stored.1 hx)⟩⟩
      | failed _ _ _ cause err after => exact cause.ne_ok rfl

/-! ### C33: rejected calls -/

/-- C33 for batches: a call that reports invalid input, a combination that is not implemented or no solution leaves the number of clusters as it was. Labels are as before if there is a
cluster; if the clustering was empty and there is no solution the contents of the label array may be lost (`C33_fails_batches`). -/
theorem C33_rejected_batches_partial {cfg : Cfg} {spi : Spi F} {A : Criterion F} {dist : Nat → Nat → F} {mayRefuse : Prop} {o : Options F} {ob : ClObj}
    (hs : SpiOk spi ob.cl.n A dist mayRefuse) {P : List Nat} {lab c : Nat → Nat} {w : World} (hc : CallOk cfg o ob P lab c w) (hm : o.seedMethod = .batches) (hfit : BatchFits o ob.cl.n) :
    ∃ e p w', scClustering cfg spi o (some ob) w = some ((e, p), w') ∧
      (e = .invalidInput ∨ e = .notImplemented ∨ e = .noSolution → w'.err.code = e ∧
        ∃ cl', p = some ⟨ob.id, cl'⟩ ∧ cl'.numClusters = ob.cl.numClusters ∧ cl'.n = ob.cl.n ∧ (cl' = ob.cl ∨ e = .noSolution ∧ ob.cl.numClusters = 0)) := by
  obtain ⟨⟨e, p⟩, w', h1, h2⟩ := scBatches_spec hs hc hm hfit
  refine ⟨e, p, w', h1, fun he => ?_⟩
  rcases h2 with h2 | ⟨hacc, -, ⟨-, h2, h3, -⟩ | ⟨-, M, cl', hlive, hp, h2⟩⟩
  · exact ⟨h2.err, ob.cl, h2.same, rfl, rfl, Or.inl rfl⟩
  · cases h2
    exact ⟨h3, ob.cl, rfl, rfl, rfl, Or.inl rfl⟩
  · dsimp only at hp
    cases h2 with
    | done _ _ evs id l run count pos cap labels labelled live => simp at he
    | failed _ _ _ cause err after => rcases cause with ⟨rfl, -⟩ | ⟨rfl, -⟩ | ⟨rfl, -⟩ <;> simp at he
    | noSeeds _ _ evs id l run none err labels labelled live =>
      exact ⟨err, cl', hp, by rw [labelled.eq]; exact hacc.empty.symm, by rw [labelled.eq], Or.inr ⟨rfl, hacc.empty⟩⟩

/-- An empty clustering object with a label array supplied by the user. -/
def filledObj : ClObj := ⟨5, clusteringVersion, 6, 0, some ⟨7, Buf.ofList [4, 4, 4, 4, 4, 4]⟩, true⟩

/-- Clusters of three points within radius one, which do not exist on the line. -/
def tightOpts : Options Int := { (defaultOptions : Options Int) with sizeConstraint := 3, seedMethod := .batches, seedRadius := .useSupplied, seedSupplied := 1 }

/-- C33 is false for batches: the call reports that there is no solution, but the user's label array has been overwritten. -/
theorem C33_fails_batches : CallOk sampleCfg tightOpts filledObj (List.range 6) (fun _ => 0) (fun _ => 0) (sampleWorld [5, 7]) ∧
    ∃ cl b w', scClustering sampleCfg (builtinSpi (some lineData)) tightOpts (some filledObj) (sampleWorld [5, 7]) = some ((.noSolution, some ⟨5, cl⟩), w') ∧
      cl.numClusters = 0 ∧ cl.label = some b ∧ b.buf.read 6 = some [-2 ^ 31, -2 ^ 31, -2 ^ 31, -2 ^ 31, -2 ^ 31, -2 ^ 31] := by
  have hcall : CallOk sampleCfg tightOpts filledObj (List.range 6) (fun _ => 0) (fun _ => 0) (sampleWorld [5, 7]) :=
    ⟨sampleCfg_valid, le_of_eq (by decide), (by intro lb h; cases h; decide), ⟨fun _ => rfl, nofun, fun x hx => List.mem_range.1 hx, nofun, nofun⟩,
      fun _ => ⟨by show 6 * 3 ≤ 2 ^ 64 - 1; decide, fun h => by simp [tightOpts, defaultOptions] at h⟩, fun _ => rfl⟩
  have hacc : Accepts sampleCfg (builtinSpi (some lineData)).valid (builtinSpi (some lineData)).numPoints tightOpts filledObj.cl (List.range 6) :=
    ⟨by decide, by decide, by decide, ⟨rfl, by show 2 ≤ 3; decide, by show 3 ≤ 6; decide, Or.inl ⟨by show 0 < 2; decide, rfl, rfl, rfl⟩, nofun, Or.inl ⟨rfl, rfl⟩, nofun, Or.inl rfl,
      ⟨Or.inr rfl, nofun, fun _ => by decide⟩, ⟨nofun, nofun⟩, ⟨nofun, nofun⟩, fun _ => ⟨by show 0 < 2; decide, rfl, rfl⟩⟩, rfl⟩
  refine ⟨hcall, ?_⟩
  obtain ⟨r, w', h1, h2⟩ := scBatches_functional (f := fun q => nnAnswer (lineData.sqd q) (List.range 6) 3 (some 1)) (ob := filledObj) lineSpi_ok hcall rfl (by show 3 * 6 < 2 ^ 32; decide)
    hacc (Or.inr rfl) (fun _ _ => rfl) (fun q a h => h)
  simp only [map_stored_off (cfg := sampleCfg) rfl] at h2
  have hst : (seqRun false ((List.range 6).map fun q => (q, nnAnswer (lineData.sqd q) (List.range 6) 3 (some 1)))).clusters = [] ∧
      (List.range 6).map (seqRun false ((List.range 6).map fun q => (q, nnAnswer (lineData.sqd q) (List.range 6) 3 (some 1)))).label = [none, none, none, none, none, none] := by decide +kernel
  cases h2 with
  | ok cl b pos cap count label points labels =>
    exact absurd pos (by show ¬ 0 < (seqRun false ((List.range 6).map _)).clusters.length; rw [hst.1]; decide)
  | tooLarge p big =>
    exact absurd big (by show ¬ 2 ^ 31 - 1 < (seqRun false ((List.range 6).map _)).clusters.length; rw [hst.1]; decide)
  | noSeeds cl b none count label labels =>
    refine ⟨cl, b, w', h1, count, label, ?_⟩
    rw [Buf.read_eq_some]
    have h3 := hst.2
    refine ⟨rfl, fun v hv => ?_⟩
    have hv' : v < 6 := hv
    rw [labels v hv']
    show some (encLabel sampleCfg ((seqRun false _).label v)) = _
    have hlab : (seqRun false ((List.range 6).map fun q => (q, nnAnswer (lineData.sqd q) (List.range 6) 3 (some 1)))).label v = [Option.none, Option.none, Option.none, Option.none, Option.none, Option.none].getD v Option.none := by
      rw [← h3]
      simp [hv']
    rw [hlab]
    clear hlab h3 hst
    revert v
    decide

/-- The hypotheses of the theorems about "no solution" are met by this call. -/
example : ∃ e p w', scClustering sampleCfg (builtinSpi (some lineData)) tightOpts (some filledObj) (sampleWorld [5, 7]) = some ((e, p), w') ∧
    (e = .noSolution → 6 < 3 ∨ tightOpts.seedRadius = .useSupplied ∧ ∀ v ∈ List.range 6, ¬ EnoughWithin lineData.Within 6 3 v 1) ∧
    (tightOpts.seedRadius = .useSupplied → (∀ v ∈ List.range 6, ¬ EnoughWithin lineData.Within 6 3 v 1) → e ≠ .ok) :=
  C42_no_solution_batches (ob := filledObj) lineSpi_nearest C33_fails_batches.1 rfl (by show 3 * 6 < 2 ^ 32; decide)

example : ∃ e p w', scClustering sampleCfg (builtinSpi (some lineData)) tightOpts (some filledObj) (sampleWorld [5, 7]) = some ((e, p), w') ∧
    (e = .invalidInput ∨ e = .notImplemented ∨ e = .noSolution → w'.err.code = e ∧
      ∃ cl', p = some ⟨5, cl'⟩ ∧ cl'.numClusters = 0 ∧ cl'.n = 6 ∧ (cl' = filledObj.cl ∨ e = .noSolution ∧ filledObj.cl.numClusters = 0)) :=
  C33_rejected_batches_partial (ob := filledObj) lineSpi_nearest C33_fails_batches.1 rfl (by show 3 * 6 < 2 ^ 32; decide)

end Scc
