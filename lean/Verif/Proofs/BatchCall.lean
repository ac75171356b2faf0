/-
Calls of `scc_sc_clustering` with batches: outcomes, and facts about the clusters that follow from the sequential algorithm.
-/
import Verif.Proofs.BatchRun
import Verif.Proofs.RunFacts

set_option linter.unusedSimpArgs false
set_option linter.unusedVariables false

namespace Scc

variable {F : Type} [FloatOps F]

/-- The outcomes of a call with batches. -/
theorem scBatches_spec {cfg : Cfg} {spi : Spi F} {A : Criterion F} {dist : Nat → Nat → F} {mayRefuse : Prop} {o : Options F} {ob : ClObj}
    (hs : SpiOk spi ob.cl.n A dist mayRefuse) {P : List Nat} {lab c : Nat → Nat} {w : World} (hc : CallOk cfg o ob P lab c w) (hm : o.seedMethod = .batches) (hfit : BatchFits o ob.cl.n) :
    WpM (scClustering cfg spi o (some ob)) w fun r w' => RejectPost cfg spi o ob P w r w' ∨
      Accepts cfg spi.valid spi.numPoints o ob.cl P ∧ w'.fails = w.fails ∧ ((o.primaryMethod ≠ .ignore ∧ o.primaryMethod ≠ .anyNeighbor) ∧ r = (.invalidInput, some ob) ∧ w'.err.code = .invalidInput ∧ w'.live = w.live ∨
        (o.primaryMethod = .ignore ∨ o.primaryMethod = .anyNeighbor) ∧ ∃ M cl', w.live = ptrOwn ob.cl.label + M ∧ r.2 = some ⟨ob.id, cl'⟩ ∧ BatchOutcome cfg A w ob.cl.n o P mayRefuse M ob.cl (r.1, cl') w') := by
  obtain ⟨M, hM⟩ := Multiset.le_iff_exists_add.1 hc.live
  have hlive : w.live = ptrOwn ob.cl.label + ({ob.id} + M) := by rw [hM]; abel
  refine scClustering_checks (by rw [hM]; simp) hc.arrays (fun r w' h => Or.inl h) fun hacc => ?_
  unfold scAccepted
  rw [hm]
  dsimp only
  rw [wpM_bind]
  by_cases hum : o.primaryMethod = .ignore ∨ o.primaryMethod = .anyNeighbor
  · refine (clusterBatches_spec hs hacc.valid hacc.options hc.arrays hum hfit hc.room hacc.empty hlive hc.unchecked).mono ?_
    rintro ⟨e, cl'⟩ w1 ⟨f1, h1⟩
    dsimp only
    rw [wpM_bind]
    unfold touch
    rw [wpM_useK]
    have hid : ob.id ∈ w1.live := by
      cases h1 with
      | done cl' _ evs id l run count pos cap labels labelled live => rw [live]; simp
      | failed e cl' _ cause err after => rcases after with ⟨-, live⟩ | ⟨id, l, -, live⟩ <;> rw [live] <;> simp
      | noSeeds cl' _ evs id l run none err labels labelled live => rw [live]; simp
    refine ⟨by simpa using hid, ?_⟩
    rw [wp_some, wpM_pure]
    exact Or.inr ⟨hacc, f1, Or.inr ⟨hum, _, cl', hlive, rfl, h1⟩⟩
  · have hum' : o.primaryMethod ≠ .ignore ∧ o.primaryMethod ≠ .anyNeighbor := not_or.1 hum
    have hv := hacc.options
    have h1 := hv.size_two
    have h2 := hv.size_le
    have : ∃ l msg, batchArgsError spi ob.cl o.sizeConstraint o.primaryMethod (decide (o.seedRadius = .useSupplied)) o.seedSupplied o.lenPrimary o.primary = some (.invalidInput, l, msg) := by
      unfold batchArgsError
      rw [if_neg (by simp [hacc.valid]), if_neg (by simp [hs.numPoints]), if_neg (by omega), if_neg (by omega), if_pos hum']
      exact ⟨_, _, rfl⟩
    obtain ⟨l, msg, he⟩ := this
    unfold clusterBatches
    rw [he]
    dsimp only
    rw [wpM_bind]
    refine wpM_mkErr fun w1 l1 l2 l3 => ?_
    rw [wpM_pure]
    dsimp only
    rw [wpM_bind]
    unfold touch
    rw [wpM_useK]
    refine ⟨by rw [l2, hM]; simp, ?_⟩
    rw [wp_some, wpM_pure]
    exact Or.inr ⟨hacc, l1, Or.inl ⟨hum', rfl, by rw [l3], l2⟩⟩

/-- What the sequential algorithm guarantees about clusters and joined points. -/
structure SeqFacts (C : Nat → Option (List Nat) → Prop) (P : List Nat) (ig : Bool) (st : SeqState) : Prop where
  seeds : ∀ c ∈ st.clusters, ∃ s a, s ∈ P ∧ C s (some a) ∧ c = seedCluster s a
  joined : ∀ v i, st.joined v = some i → ig = false ∧ v ∈ P ∧ ∃ a x c, C v (some a) ∧ x ∈ a ∧ st.clusters[i]? = some c ∧ x ∈ c
  covered : ∀ v ∈ P, st.Captured v ∨ C v none ∨ ∃ a, C v (some a) ∧ (∃ x ∈ a, st.Captured x) ∧ (ig = false → (st.joined v).isSome)

theorem joined_isSome_consider {ig : Bool} {st : SeqState} {e : Nat × Option (List Nat)} {v : Nat} (h : (st.joined v).isSome) : ((st.consider ig e).joined v).isSome := by
  unfold SeqState.consider
  split
  · exact h
  · split
    · exact h
    · split
      · exact h
      · rename_i x hx
        split
        · exact h
        · dsimp only
          split
          · have := List.find?_some hx
            rw [decide_eq_true_eq, captured_iff] at this
            unfold SeqState.label
            rw [Option.isSome_or, this]; rfl
          · exact h

theorem seqFacts {C : Nat → Option (List Nat) → Prop} {ig : Bool} {evs : List (Nat × Option (List Nat))} (hC : ∀ q a, C q (some a) → a ≠ []) (h : GoodAnswers ig C evs) :
    SeqFacts C (evs.map Prod.fst) ig (seqRun ig evs) := by
  induction evs using List.reverseRecOn with
  | nil => exact ⟨by simp [seqRun, SeqState.init], by simp [seqRun, SeqState.init], by simp⟩
  | append_singleton evs e ih =>
    have hg : GoodAnswers ig C evs := fun pre e' post he => h pre e' (post ++ [e]) (by rw [he]; simp)
    have hf := ih hg
    have he := h evs e [] rfl
    rw [seqRun_append, List.map_append]
    show SeqFacts C _ ig ((seqRun ig evs).consider ig e)
    generalize seqRun ig evs = st at *
    obtain ⟨q, oa⟩ := e
    dsimp only at he
    -- facts about points considered earlier carry over
    have hcov : ∀ st' : SeqState, (∀ x, st.Captured x → st'.Captured x) → (∀ v, (st.joined v).isSome → (st'.joined v).isSome) →
        (st'.Captured q ∨ C q none ∨ ∃ a, C q (some a) ∧ (∃ x ∈ a, st'.Captured x) ∧ (ig = false → (st'.joined q).isSome)) →
        ∀ v ∈ evs.map Prod.fst ++ [(q, oa)].map Prod.fst, st'.Captured v ∨ C v none ∨ ∃ a, C v (some a) ∧ (∃ x ∈ a, st'.Captured x) ∧ (ig = false → (st'.joined v).isSome) := by
      intro st' h1 h2 h3 v hv
      rcases List.mem_append.1 hv with hv | hv
      · rcases hf.covered v hv with h4 | h4 | ⟨a, h4, ⟨x, h5, h6⟩, h7⟩
        · exact Or.inl (h1 v h4)
        · exact Or.inr (Or.inl h4)
        · exact Or.inr (Or.inr ⟨a, h4, ⟨x, h5, h1 x h6⟩, fun hi => h2 v (h7 hi)⟩)
      · simp only [List.map_cons, List.map_nil, List.mem_singleton] at hv
        rw [hv]; exact h3
    have hseeds : ∀ c ∈ st.clusters, ∃ s a, s ∈ evs.map Prod.fst ++ [(q, oa)].map Prod.fst ∧ C s (some a) ∧ c = seedCluster s a := fun c hc => by
      obtain ⟨s, a, h1, h2, h3⟩ := hf.seeds c hc
      exact ⟨s, a, List.mem_append_left _ h1, h2, h3⟩
    have hjoin : ∀ cs : List (List Nat), (∃ t, cs = st.clusters ++ t) → ∀ v i, st.joined v = some i → ig = false ∧ v ∈ evs.map Prod.fst ++ [(q, oa)].map Prod.fst ∧
        ∃ a x c, C v (some a) ∧ x ∈ a ∧ cs[i]? = some c ∧ x ∈ c := by
      rintro cs ⟨t, rfl⟩ v i hi
      obtain ⟨h1, h2, a, x, c, h3, h4, h5, h6⟩ := hf.joined v i hi
      exact ⟨h1, List.mem_append_left _ h2, a, x, c, h3, h4, by rw [List.getElem?_append_left (List.getElem?_eq_some_iff.1 h5).1]; exact h5, h6⟩
    by_cases hq : st.Captured q
    · rw [SeqState.consider_captured hq]
      exact ⟨hseeds, hjoin _ ⟨[], by simp⟩, hcov st (fun _ h => h) (fun _ h => h) (Or.inl hq)⟩
    · have hCq : C q oa := he.resolve_left hq
      have hmono : ∀ x, st.Captured x → (st.consider ig (q, oa)).Captured x := fun x hx => hx.consider _
      have hmonoj : ∀ v, (st.joined v).isSome → ((st.consider ig (q, oa)).joined v).isSome := fun v hv => joined_isSome_consider hv
      cases oa with
      | none =>
        rw [SeqState.consider_none] at *
        exact ⟨hseeds, hjoin _ ⟨[], by simp⟩, hcov st (fun _ h => h) (fun _ h => h) (Or.inr (Or.inl hCq))⟩
      | some a =>
        cases hfd : a.find? fun x => decide (st.Captured x) with
        | none =>
          have heq : st.consider ig (q, some a) = { st with clusters := st.clusters ++ [seedCluster q a] } := by simp [SeqState.consider, hq, hfd]
          refine ⟨?_, ?_, hcov _ hmono hmonoj (Or.inl ?_)⟩
          · rw [heq]
            intro c hc
            rcases List.mem_append.1 hc with hc | hc
            · exact hseeds c hc
            · exact ⟨q, a, by simp, hCq, by simpa using hc⟩
          · rw [heq]
            exact hjoin _ ⟨_, rfl⟩
          · rw [heq]
            exact ⟨seedCluster q a, by simp, by simp [seedCluster]⟩
        | some x =>
          have hx1 := List.mem_of_find?_eq_some hfd
          have hx2 : st.Captured x := by simpa using List.find?_some hfd
          have heq : st.consider ig (q, some a) = if ig then st else { st with joined := fun v => if v = q then st.label x else st.joined v } := by simp [SeqState.consider, hq, hfd]
          cases ig with
          | true =>
            simp only [↓reduceIte] at heq
            rw [heq]
            exact ⟨hseeds, hjoin _ ⟨[], by simp⟩, hcov st (fun _ h => h) (fun _ h => h) (Or.inr (Or.inr ⟨a, hCq, ⟨x, hx1, hx2⟩, by simp⟩))⟩
          | false =>
            simp only [Bool.false_eq_true, ↓reduceIte] at heq
            obtain ⟨i, hi⟩ := Option.isSome_iff_exists.1 (captured_iff.1 hx2)
            have hlx : st.label x = some i := by unfold SeqState.label; rw [hi]; rfl
            refine ⟨?_, ?_, hcov _ hmono hmonoj (Or.inr (Or.inr ⟨a, hCq, ⟨x, hx1, hmono x hx2⟩, fun _ => ?_⟩))⟩
            · rw [heq]; exact hseeds
            · rw [heq]
              intro v j hj
              dsimp only at hj
              by_cases hvq : v = q
              · rw [if_pos hvq, hlx, Option.some.injEq] at hj
                subst hj
                obtain ⟨hlt, hmem, -⟩ := List.findIdx?_eq_some_iff_getElem.1 hi
                exact ⟨rfl, by simp [hvq], a, x, _, by rw [hvq]; exact hCq, hx1, List.getElem?_eq_getElem hlt, by simpa using hmem⟩
              · rw [if_neg hvq] at hj
                exact hjoin _ ⟨[], by simp⟩ v j hj
            · rw [heq]
              dsimp only
              rw [if_pos rfl, hlx]; rfl

theorem BatchRun.seqOk {cfg : Cfg} {A : Criterion F} {n : Nat} {o : Options F} {P : List Nat} {evs : List (Nat × Option (List Nat))} (h : BatchRun cfg A n o P evs) (hS : 0 < o.sizeConstraint) (hr : ∀ x ∈ P, x < n) :
    SeqOk n o.sizeConstraint (batchResult o evs) :=
  SeqOk.run _ hS h.good fun e he => hr _ (by rw [← h.order]; exact List.mem_map_of_mem he)

theorem BatchRun.facts {cfg : Cfg} {A : Criterion F} {n : Nat} {o : Options F} {P : List Nat} {evs : List (Nat × Option (List Nat))} (h : BatchRun cfg A n o P evs) (hS : 0 < o.sizeConstraint) :
    SeqFacts (AnswerOk (Stored cfg A) n o.sizeConstraint (seedLimit o)) P (decide (o.primaryMethod = .ignore)) (batchResult o evs) := by
  rw [← h.order]
  refine seqFacts (fun q a ha hnil => ?_) h.good
  have := (ha.2.2 a rfl).1
  rw [hnil] at this
  simp at this; omega

/-- Labels of captured points. -/
theorem SeqOk.label_iff {n S : Nat} {st : SeqState} (h : SeqOk n S st) {i x : Nat} {c : List Nat} (hc : st.clusters[i]? = some c) (hx : x ∈ c) : st.label x = some i := by
  unfold SeqState.label
  obtain ⟨hi, hci⟩ := List.getElem?_eq_some_iff.1 hc
  have : st.clusters.findIdx? (fun c => decide (x ∈ c)) = some i := by
    refine List.findIdx?_eq_some_iff_getElem.2 ⟨hi, by simpa [hci] using hx, fun j hj => ?_⟩
    simp only [decide_eq_true_eq, Bool.not_eq_true, decide_eq_false_iff_not]
    intro hxj
    have := List.pairwise_iff_getElem.1 h.disjoint j i (by omega) hi hj
    exact this x hxj (by rw [hci]; exact hx)
  rw [this]; rfl

/-- A label comes from a cluster or from joining. -/
theorem label_cases {st : SeqState} {v i : Nat} (h : st.label v = some i) : (∃ c, st.clusters[i]? = some c ∧ v ∈ c) ∨ ¬ st.Captured v ∧ st.joined v = some i := by
  unfold SeqState.label at h
  cases hf : st.clusters.findIdx? fun c => decide (v ∈ c) with
  | some j =>
    rw [hf] at h
    simp only [Option.some_or, Option.some.injEq] at h
    subst h
    obtain ⟨hlt, hmem, -⟩ := List.findIdx?_eq_some_iff_getElem.1 hf
    exact Or.inl ⟨_, List.getElem?_eq_getElem hlt, by simpa using hmem⟩
  | none =>
    rw [hf, Option.none_or] at h
    exact Or.inr ⟨by rw [captured_iff, hf]; simp, h⟩

end Scc
