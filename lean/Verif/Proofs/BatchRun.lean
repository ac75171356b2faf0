/-
`scc_nng_clustering_batches`: outcomes of the loop over batches and of a whole call.
-/
import Verif.Proofs.BatchSteps
import Verif.Proofs.Run

set_option linter.unusedSimpArgs false
set_option linter.unusedVariables false

namespace Scc

variable {F : Type} [FloatOps F]

theorem joined_consider {ig : Bool} {st : SeqState} {e : Nat × Option (List Nat)} {v : Nat} (h : v ≠ e.1) : (st.consider ig e).joined v = st.joined v := by
  unfold SeqState.consider
  split
  · rfl
  · split
    · rfl
    · split
      · rfl
      · split
        · rfl
        · simp [h]

theorem joined_seqRun {ig : Bool} {evs : List (Nat × Option (List Nat))} {v : Nat} (h : v ∉ evs.map Prod.fst) : (seqRun ig evs).joined v = none := by
  suffices H : ∀ (evs : List (Nat × Option (List Nat))) (st : SeqState), v ∉ evs.map Prod.fst → (evs.foldl (SeqState.consider ig) st).joined v = st.joined v from H evs _ h
  intro evs
  induction evs with
  | nil => exact fun _ _ => rfl
  | cons e evs ih =>
    intro st hv
    rw [List.map_cons, List.mem_cons] at hv
    rw [List.foldl_cons, ih _ (fun h' => hv (Or.inr h')), joined_consider (fun h' => hv (Or.inl h'))]

/-- Answers to the queries of a batch extend the answers for earlier points. -/
theorem extend_answers {ig : Bool} {C : Nat → Option (List Nat) → Prop} {evs res : List (Nat × Option (List Nat))} {p : Nat → Bool} {cur cur' : Nat} (hg : GoodAnswers ig C evs)
    (hm : evs.map Prod.fst = (List.range cur).filter p) (hle : cur ≤ cur') (hres : res.map Prod.fst = batchQueries (seqRun ig evs) p cur cur') (hC : ∀ e ∈ res, C e.1 e.2) :
    ∃ evs', GoodAnswers ig C evs' ∧ evs'.map Prod.fst = (List.range cur').filter p ∧ seqRun ig evs' = res.foldl (SeqState.consider ig) (seqRun ig evs) := by
  let g : Nat → Nat × Option (List Nat) := fun q => (q, (res.find? fun e => e.1 == q).bind Prod.snd)
  have hnd : (res.map Prod.fst).Nodup := by
    rw [hres]
    exact ((List.nodup_range').filter _).filter _
  have hg' : ∀ e ∈ res, g e.1 = e := by
    intro e he
    have h1 : (res.find? fun e' => e'.1 == e.1) = some e := by
      cases hf : res.find? fun e' => e'.1 == e.1 with
      | none =>
        have := List.find?_eq_none.1 hf e he
        simp at this
      | some e' =>
        have h2 := List.mem_of_find?_eq_some hf
        have h3 := List.find?_some hf
        rw [List.inj_on_of_nodup_map hnd h2 he (by simpa using h3)]
    show (e.1, (res.find? fun e' => e'.1 == e.1).bind Prod.snd) = e
    rw [h1]
    rfl
  have hmap : (batchQueries (seqRun ig evs) p cur cur').map g = res := by
    rw [← hres, List.map_map]
    conv_rhs => rw [← List.map_id res]
    exact List.map_congr_left fun e he => hg' e he
  let ext := ((List.range' cur (cur' - cur)).filter p).map g
  have hfil : (ext.filter fun e => decide (¬ (seqRun ig evs).Captured e.1)) = res := by
    rw [← hmap]
    show List.filter _ (List.map g _) = _
    rw [List.filter_map]
    rfl
  refine ⟨evs ++ ext, hg.append fun e he => ?_, ?_, ?_⟩
  · by_cases hc : (seqRun ig evs).Captured e.1
    · exact Or.inl hc
    · right
      refine hC e ?_
      rw [← hfil]
      exact List.mem_filter.2 ⟨he, by simpa using hc⟩
  · rw [List.map_append, hm]
    show _ ++ List.map Prod.fst (List.map g _) = _
    rw [List.map_map, show (Prod.fst ∘ g) = _root_.id from rfl, List.map_id, ← List.filter_append]
    congr 1
    rw [List.range_eq_range', List.range_eq_range']
    have := List.range'_append (s := 0) (m := cur) (n := cur' - cur) (step := 1)
    rw [show 0 + 1 * cur = cur by omega, show cur + (cur' - cur) = cur' by omega] at this
    exact this
  · rw [seqRun_append, ← foldl_filter_captured (seqRun ig evs) ext _ (fun _ h => h), hfil]

/-- Outcomes of the loop over batches. -/
structure LoopPost (cfg : Cfg) (C : Nat → Option (List Nat) → Prop) (n ll : Nat) (ig : Bool) (p : Nat → Bool) (mayRefuse : Prop) (w : World) (ec : ErrorCode) (b : BatchSt) (w' : World) : Prop where
  fails : w'.fails = w.fails
  live : w'.live = w.live
  len : b.labels.len = ll
  out : ec = .ok ∧ w'.err = w.err ∧ (∃ evs, GoodAnswers ig C evs ∧ evs.map Prod.fst = (List.range n).filter p ∧ BRep cfg n ll n (seqRun ig evs) b) ∨
    w'.err.code = ec ∧ (ec = .distSearch ∧ (¬ w.NoFail ∨ mayRefuse) ∨
      ec = .tooLarge ∧ ∃ evs m, m ≤ n ∧ GoodAnswers ig C evs ∧ evs.map Prod.fst = (List.range m).filter p ∧ cfg.clabelMax < (seqRun ig evs).clusters.length)

/-- Answers in the order in which they are stored. -/
def storedAnswers (cfg : Cfg) (res : List (Nat × Option (List Nat))) : List (Nat × Option (List Nat)) := res.map fun e => (e.1, e.2.map (stored cfg))

theorem answered_stored (cfg : Cfg) (res : List (Nat × Option (List Nat))) : answered (storedAnswers cfg res) = (answered res).map fun e => (e.1, stored cfg e.2) := by
  unfold answered storedAnswers
  rw [List.filterMap_map, List.map_filterMap]
  congr 1
  funext e
  obtain ⟨q, _ | a⟩ := e <;> rfl

omit [FloatOps F] in
theorem AnswerOk.stored {A : Criterion F} {n S : Nat} {R : Option F} {q : Nat} {a : Option (List Nat)} (h : AnswerOk A n S R q a) (cfg : Cfg) :
    AnswerOk (Stored cfg A) n S R q (a.map (stored cfg)) := by
  refine ⟨⟨a, h.1, rfl⟩, fun hR => ?_, fun l hl => ?_⟩
  · have := h.2.1 hR
    cases a with
    | none => exact absurd rfl this
    | some a => simp
  · cases a with
    | none => simp at hl
    | some a =>
      simp at hl
      subst hl
      obtain ⟨r1, r2, r3⟩ := h.2.2 a rfl
      exact ⟨by rw [length_stored, r1], nodup_stored.2 r2, fun x hx => r3 (mem_stored.1 hx)⟩

theorem sortBlocks_spec {cfg : Cfg} {S : Nat} {nn : Buf Nat} {l : List (Nat × List Nat)} (hl : ∀ e ∈ l, e.2.length = S)
    (h : ∀ i e, l[i]? = some e → ∀ (t x : Nat), e.2[t]? = some x → nn.get (i * S + t) = some x) :
    Wp (sortBlocks cfg l.length S nn) fun b => b.len = nn.len ∧ ∀ i e, l[i]? = some e → ∀ (t x : Nat), (stored cfg e.2)[t]? = some x → b.get (i * S + t) = some x := by
  unfold sortBlocks
  by_cases hst : cfg.stableNng = true
  swap
  · rw [if_neg hst, wp_pure]
    exact ⟨rfl, fun i e he t x hx => h i e he t x (by rwa [stored_off (by simpa using hst)] at hx)⟩
  rw [if_pos hst]
  refine wp_forLt (fun k b => b.len = nn.len ∧ ∀ i e, l[i]? = some e → ∀ (t x : Nat), (if i < k then stored cfg e.2 else e.2)[t]? = some x → b.get (i * S + t) = some x) (Nat.zero_le _)
    ⟨rfl, by simpa using h⟩ ?_ ?_
  · intro k b _ hk ⟨a1, a2⟩
    have he := List.getElem?_eq_getElem hk
    have hlen := hl _ (List.getElem_mem hk)
    rw [← hlen]
    refine (qsortAt_spec (l := l[k].2) (fun j a ha => ?_)).mono ?_
    · rw [hlen]; exact a2 k _ he j a (by simpa using ha)
    · rintro b' ⟨c1, c2, c3⟩
      refine ⟨c1.trans a1, fun i e hie t x hx => ?_⟩
      rw [hlen] at c2 c3
      have hle := hl e (List.mem_of_getElem? hie)
      have ht : t < S := by
        have := (List.getElem?_eq_some_iff.1 hx).1
        split at this
        · rwa [length_stored, hle] at this
        · rwa [hle] at this
      by_cases hik : i = k
      · subst hik
        rw [he] at hie
        simp at hie
        subst hie
        rw [hlen]
        rw [if_pos (by omega), stored_on hst] at hx
        exact c2 t x hx
      · rw [hlen, c3]
        · refine a2 i e hie t x ?_
          rw [← hx]
          simp only [show i < k + 1 ↔ i < k by omega]
        · rcases Nat.lt_or_gt_of_ne hik with h' | h'
          · left
            have : (i + 1) * S ≤ k * S := Nat.mul_le_mul_right S h'
            rw [Nat.succ_mul] at this; omega
          · right
            have : (k + 1) * S ≤ i * S := Nat.mul_le_mul_right S h'
            rw [Nat.succ_mul] at this; omega
  · rintro b ⟨a1, a2⟩
    refine ⟨a1, fun i e hie t x hx => a2 i e hie t x ?_⟩
    rw [if_pos (List.getElem?_eq_some_iff.1 hie).1]; exact hx

/-- When the loop over batches, started at `cur`, searches. -/
structure LoopSearched (n cur : Nat) (p : Nat → Bool) (st : SeqState) (before : Bool) (ec : ErrorCode) (after : Bool) : Prop where
  found : after = true → before = true ∨ ∃ v, v < n ∧ p v = true
  kept : before = true → after = true
  none : ec = .ok → after = false → ∀ v, cur ≤ v → v < n → p v = true → st.Captured v

theorem batchLoop_spec {cfg : Cfg} {spi : Spi F} {n : Nat} {A : Criterion F} {dist : Nat → Nat → F} {mayRefuse : Prop} (hs : SpiOk spi n A dist mayRefuse) {o : spi.NN} {own : Multiset Nat}
    (ho : hs.isNN o (List.range n) own []) {ids : BatchIds} {S bs ll bl ol : Nat} {ig rs : Bool} {radius : F} {primary : Option (Buf Bool)} {p : Nat → Bool}
    (hp : PrimaryMarks n primary p) (hS : 0 < S) (hSn : S ≤ n) (hbs : 0 < bs) (hbl : bs ≤ bl) (hol : bs * S ≤ ol) (fuel : Nat) :
    ∀ (cur : Nat) (r : RunSt) (w : World) (evs : List (Nat × Option (List Nat))), n ≤ cur + fuel → cur ≤ n →
    (∀ i ∈ ids.batch :: ids.out :: ids.assigned :: ids.primary ++ ids.label, i ∈ w.live) → own ≤ w.live →
    GoodAnswers ig (AnswerOk (Stored cfg A) n S (if rs then some radius else none)) evs → evs.map Prod.fst = (List.range cur).filter p → BRep cfg n ll cur (seqRun ig evs) r.st →
    r.batch.len = bl → r.out.len = ol →
    WpM (batchLoop cfg spi o ids n S ig rs radius primary bs fuel cur r) w fun x w' =>
      LoopPost cfg (AnswerOk (Stored cfg A) n S (if rs then some radius else none)) n ll ig p mayRefuse w x.1 x.2.st w' ∧
      LoopSearched n cur p (seqRun ig evs) r.searched x.1 x.2.searched := by
  induction fuel with
  | zero =>
    intro cur r w evs h1 h2 hids hown hg hm hrep hb hout
    unfold batchLoop
    rw [if_neg (by omega), wpM_pure]
    obtain rfl : cur = n := by omega
    exact ⟨⟨rfl, rfl, hrep.llen, Or.inl ⟨rfl, rfl, evs, hg, hm, hrep⟩⟩, ⟨fun h => Or.inl h, fun h => h, fun _ _ v h3 h4 => by omega⟩⟩
  | succ fuel ih =>
    intro cur r w evs h1 h2 hids hown hg hm hrep hb hout
    unfold batchLoop
    by_cases hcur : cur < n
    swap
    · rw [if_neg hcur, wpM_pure]
      obtain rfl : cur = n := by omega
      exact ⟨⟨rfl, rfl, hrep.llen, Or.inl ⟨rfl, rfl, evs, hg, hm, hrep⟩⟩, ⟨fun h => Or.inl h, fun h => h, fun _ _ v h3 h4 => by omega⟩⟩
    rw [if_pos hcur]
    dsimp only
    rw [wpM_bind, wpM_useK]
    refine ⟨fun i hi => hids i (by simp at hi ⊢; tauto), ?_⟩
    have hj : ∀ v, cur ≤ v → (seqRun ig evs).joined v = none := by
      intro v hv
      refine joined_seqRun ?_
      rw [hm]
      intro h
      have := List.mem_range.1 (List.mem_of_mem_filter h)
      omega
    refine (fillBatch_spec hrep hp hcur hbs (by omega) hj).mono ?_
    rintro ⟨labels, batch, inb, cur'⟩ ⟨k1, k2, k3, k4, k5, k6, k7, k8⟩
    dsimp only at k1 k2 k3 k4 k5 k6 k7 k8 ⊢
    by_cases hin : inb = 0
    · rw [if_pos hin, wpM_pure]
      obtain rfl : cur' = n := k6 (by omega)
      have hq : batchQueries (seqRun ig evs) p cur cur' = [] := List.length_eq_zero_iff.1 (by omega)
      obtain ⟨evs', e1, e2, e3⟩ := extend_answers (res := []) hg hm k3.le (by rw [hq]; rfl) (by simp)
      refine ⟨⟨rfl, rfl, k1.llen, Or.inl ⟨rfl, rfl, evs', e1, e2, ?_⟩⟩, ⟨fun h => Or.inl h, fun h => h, fun _ _ v h3 h4 h5 => ?_⟩⟩
      · rw [e3]
        exact k1
      · by_contra hc
        have : v ∈ batchQueries (seqRun ig evs) p cur cur' := by
          unfold batchQueries
          exact List.mem_filter.2 ⟨List.mem_filter.2 ⟨List.mem_range'_1.2 ⟨h3, by omega⟩, h5⟩, by simpa using hc⟩
        rw [hq] at this
        simp at this
    · rw [if_neg hin, wpM_bind]
      unfold touch
      rw [wpM_useK]
      refine ⟨fun i hi => hids i (by simp at hi ⊢; tauto), ?_⟩
      rw [wp_some, wpM_bind]
      have hQr : ∀ q ∈ batchQueries (seqRun ig evs) p cur cur', q < n ∧ q < cur' := by
        intro q hq
        have := List.mem_range'_1.1 (List.mem_of_mem_filter (List.mem_of_mem_filter hq))
        omega
      have hne : ∃ v, v < n ∧ p v = true := by
        have h0 : 0 < (batchQueries (seqRun ig evs) p cur cur').length := by omega
        have hmem := List.getElem_mem h0
        exact ⟨_, (hQr _ hmem).1, (List.mem_filter.1 (List.mem_filter.1 hmem).1).2⟩
      have hcall : NNCall n (List.range n) w [] inb (some ⟨[ids.batch], batch⟩) (batchQueries (seqRun ig evs) p cur cur') S rs .same r.out :=
        { holds := k8
          len := k7
          live := by simp
          qlive := by
            intro i hi
            exact hids i (by simp [arrIds] at hi ⊢; tauto)
          pos := by omega
          range := fun q hq => (hQr q hq).1
          kpos := hS
          kle := by simpa using hSn
          room := by
            rw [hout]
            exact le_trans (Nat.mul_le_mul_right S k5) hol
          oroom := Or.inr (by show inb ≤ batch.len; omega)
          notNull := by simp }
      refine (hs.nnSearch o (List.range n) own [] inb _ _ S rs radius .same r.out w ho hown hcall).mono ?_
      rintro (_ | res) w1 ⟨f1, f2, f3, h⟩
      · dsimp only at h ⊢
        rw [wpM_bind]
        refine wpM_mkErr fun w2 l1 l2 l3 => ?_
        rw [wpM_pure]
        exact ⟨⟨l1.trans f1, l2.trans f3, k1.llen, Or.inr ⟨by rw [l3], Or.inl ⟨rfl, h⟩⟩⟩, ⟨fun _ => Or.inr hne, fun _ => rfl, fun h => by simp at h⟩⟩
      · dsimp only at h ⊢
        obtain ⟨g1, g2, ans, g3, g4, g5⟩ := h
        have g2' : res.outQ.len = batch.len := g2 (by simp)
        rw [wpM_bind, wpM_useK]
        refine ⟨fun i hi => by rw [f3]; exact hids i (by simp at hi ⊢; tauto), ?_⟩
        rw [g5.numOk]
        have hlenA : ∀ e ∈ answered ans, e.2.length = S := by
          intro e he
          obtain ⟨e', he', heq⟩ := List.mem_filterMap.1 he
          obtain ⟨q, a⟩ := e'
          cases a with
          | none => simp at heq
          | some a =>
            simp at heq
            subst heq
            exact ((g4 _ he').2.2 a rfl).1
        refine (sortBlocks_spec hlenA g5.neighbors).mono ?_
        rintro nn ⟨s1, s2⟩
        have g3 : (storedAnswers cfg ans).map Prod.fst = batchQueries (seqRun ig evs) p cur cur' := by
          rw [← g3]; simp [storedAnswers, Function.comp_def]
        have g4 : ∀ e ∈ storedAnswers cfg ans, AnswerOk (Stored cfg A) n S (if rs then some radius else none) e.1 e.2 := by
          intro e he
          obtain ⟨e', he', rfl⟩ := List.mem_map.1 he
          exact AnswerOk.stored (g4 e' he') cfg
        have hlen : (answered ans).length = (answered (storedAnswers cfg ans)).length := by rw [answered_stored, List.length_map]
        have hq : ∀ (i : Nat) e, (answered (storedAnswers cfg ans))[i]? = some e → res.outQ.get i = some e.1 ∧ ∀ t x, e.2[t]? = some x → nn.get (i * S + t) = some x := by
          intro i e he
          rw [answered_stored, List.getElem?_map] at he
          obtain ⟨e', he', rfl⟩ := Option.map_eq_some_iff.1 he
          exact ⟨g5.queries (by simp) i e' he', s2 i e' he'⟩
        obtain ⟨evs', e1, e2, e3⟩ := extend_answers (C := AnswerOk (Stored cfg A) n S (if rs then some radius else none)) hg hm k3.le g3 g4
        rw [wpM_bind, wpM_useK]
        refine ⟨fun i hi => by rw [f3]; exact hids i (by simp at hi ⊢; tauto), ?_⟩
        rw [hlen]
        refine (batchSteps_spec (st := seqRun ig evs) (ig := ig) (b := { r.st with labels := labels }) k1 (res := answered (storedAnswers cfg ans)) hq hS ?_).mono ?_
        · intro e he
          obtain ⟨e', he', heq⟩ := List.mem_filterMap.1 he
          obtain ⟨q, a⟩ := e'
          cases a with
          | none => simp at heq
          | some a =>
            simp at heq
            subst heq
            have hq : q ∈ batchQueries (seqRun ig evs) p cur cur' := by
              rw [← g3]
              exact List.mem_map.2 ⟨_, he', rfl⟩
            obtain ⟨q1, q2⟩ := hQr q hq
            exact ⟨q1, q2, (g4 _ he').2.2 a rfl⟩
        · rintro (b' | b') hb'
          · dsimp only at hb' ⊢
            rw [foldl_answered, ← e3] at hb'
            refine (ih cur' ⟨b', res.outQ, nn, true⟩ w1 evs' (by omega) k4 (fun i hi => by rw [f3]; exact hids i hi) (by rw [f3]; exact hown) e1 e2 hb' ?_ ?_).mono ?_
            · show res.outQ.len = bl
              omega
            · show nn.len = ol
              omega
            · rintro ⟨ec, r'⟩ w2 ⟨h2, h3⟩
              refine ⟨⟨h2.fails.trans f1, h2.live.trans f3, h2.len, ?_⟩, ⟨fun _ => Or.inr hne, fun _ => h3.kept rfl, fun _ h => by rw [h3.kept rfl] at h; cases h⟩⟩
              rcases h2.out with ⟨o1, o2, o3⟩ | ⟨o1, o2⟩
              · exact Or.inl ⟨o1, o2.trans f2, o3⟩
              · refine Or.inr ⟨o1, ?_⟩
                rw [noFail_congr f1] at o2
                exact o2
          · dsimp only at hb' ⊢
            rw [foldl_answered, ← e3] at hb'
            rw [wpM_bind]
            refine wpM_mkErr fun w2 l1 l2 l3 => ?_
            rw [wpM_pure]
            exact ⟨⟨l1.trans f1, l2.trans f3, hb'.2, Or.inr ⟨by rw [l3], Or.inr ⟨rfl, evs', cur', k4, e1, e2, hb'.1⟩⟩⟩, ⟨fun _ => Or.inr hne, fun _ => rfl, fun h => by simp at h⟩⟩

/-- A run in batches made more clusters than there are labels. -/
def TooManyClusters (cfg : Cfg) (A : Criterion F) (n : Nat) (o : Options F) (P : List Nat) : Prop :=
  ∃ evs rest, BatchRun cfg A n o (evs.map Prod.fst) evs ∧ evs.map Prod.fst ++ rest = P ∧ cfg.clabelMax < (batchResult o evs).clusters.length

/-- Outcomes of a call with batches: labels, or a failure. After a failure the number of clusters is zero; the contents of the label array may have changed. -/
inductive BatchOutcome (cfg : Cfg) (A : Criterion F) (w : World) (n : Nat) (o : Options F) (P : List Nat) (mayRefuse : Prop) (M : Multiset Nat) (cl : Clustering) :
    ErrorCode × Clustering → World → Prop
  | done (cl' : Clustering) (w' : World) (evs : List (Nat × Option (List Nat))) (id : Nat) (l : Buf Int) (run : BatchRun cfg A n o P evs)
      (count : cl'.numClusters = (batchResult o evs).clusters.length) (pos : 0 < cl'.numClusters) (cap : cl'.numClusters ≤ cfg.clabelMax)
      (labels : LabelsAre cfg n l (batchResult o evs).label) (labelled : Labelled cl cl'.numClusters id l cl') (live : w'.live = {id} + M) :
      BatchOutcome cfg A w n o P mayRefuse M cl (.ok, cl') w'
  | failed (e : ErrorCode) (cl' : Clustering) (w' : World)
      (cause : SysCause w (TooManyClusters cfg A n o P) mayRefuse e)
      (err : w'.err.code = e)
      (after : Untouched cl cl' ∧ w'.live = ptrOwn cl.label + M ∨ ∃ id l, Labelled cl 0 id l cl' ∧ w'.live = {id} + M) :
      BatchOutcome cfg A w n o P mayRefuse M cl (e, cl') w'
  | noSeeds (cl' : Clustering) (w' : World) (evs : List (Nat × Option (List Nat))) (id : Nat) (l : Buf Int) (run : BatchRun cfg A n o P evs) (none : (batchResult o evs).clusters = [])
      (err : w'.err.code = .noSolution) (labels : LabelsAre cfg n l (batchResult o evs).label) (labelled : Labelled cl 0 id l cl') (live : w'.live = {id} + M) :
      BatchOutcome cfg A w n o P mayRefuse M cl (.noSolution, cl') w'

theorem effBatch_eq {o : Options F} {n : Nat} (h : BatchFits o n) (hS : 2 ≤ o.sizeConstraint) : effBatch n o.batchSize = batchLen o n ∧ u32 (o.sizeConstraint * effBatch n o.batchSize) = o.sizeConstraint * batchLen o n := by
  have h1 : effBatch n o.batchSize = batchLen o n := by
    unfold BatchFits batchLen at h
    unfold effBatch batchLen
    by_cases hb : o.batchSize = 0
    · simp only [hb, ↓reduceIte] at h ⊢
      have : 2 * n ≤ o.sizeConstraint * n := Nat.mul_le_mul_right n hS
      rw [if_pos (by omega)]
    · simp only [hb, ↓reduceIte]
      split <;> omega
  refine ⟨h1, ?_⟩
  rw [h1]
  exact Nat.mod_eq_of_lt h

/-- What `iscc_run_nng_batches` leaves behind. -/
structure RunPost (cfg : Cfg) (C : Nat → Option (List Nat) → Prop) (n ll : Nat) (ig : Bool) (p : Nat → Bool) (mayRefuse : Prop) (w : World) (ec : ErrorCode) (l : Buf Int) (k : Nat) (w' : World) : Prop where
  fails : w'.fails = w.fails
  live : w'.live = w.live
  len : l.len = ll
  out : ec = .ok ∧ 0 < k ∧ k ≤ cfg.clabelMax ∧ (∃ evs, GoodAnswers ig C evs ∧ evs.map Prod.fst = (List.range n).filter p ∧ k = (seqRun ig evs).clusters.length ∧
      LabelsAre cfg n l (seqRun ig evs).label) ∨
    k = 0 ∧ w'.err.code = ec ∧ (ec = .distSearch ∧ (¬ w.NoFail ∨ mayRefuse) ∨
      (ec = .tooLarge ∧ ∃ evs m, m ≤ n ∧ GoodAnswers ig C evs ∧ evs.map Prod.fst = (List.range m).filter p ∧ cfg.clabelMax < (seqRun ig evs).clusters.length) ∨
      (ec = .noSolution ∧ ∃ evs, GoodAnswers ig C evs ∧ evs.map Prod.fst = (List.range n).filter p ∧ (seqRun ig evs).clusters = [] ∧ LabelsAre cfg n l (seqRun ig evs).label))

theorem runBatches_spec {cfg : Cfg} {spi : Spi F} {n : Nat} {A : Criterion F} {dist : Nat → Nat → F} {mayRefuse : Prop} (hs : SpiOk spi n A dist mayRefuse) {o : spi.NN} {own : Multiset Nat}
    (ho : hs.isNN o (List.range n) own []) {ids : BatchIds} {S bs : Nat} {ig rs : Bool} {radius : F} {primary : Option (Buf Bool)} {p : Nat → Bool}
    (hp : PrimaryMarks n primary p) (hS : 0 < S) (hSn : S ≤ n) (hbs : 0 < bs) {batch out : Buf Nat} {labels : Buf Int} (hbl : bs ≤ batch.len) (hol : bs * S ≤ out.len) (hll : n ≤ labels.len)
    {w : World} (hids : ∀ i ∈ ids.batch :: ids.out :: ids.assigned :: ids.primary ++ ids.label, i ∈ w.live) (hown : own ≤ w.live) :
    WpM (runBatches cfg spi o ids n S ig rs radius primary bs batch out (Buf.fill n false) labels) w fun x w' =>
      RunPost cfg (AnswerOk (Stored cfg A) n S (if rs then some radius else none)) n labels.len ig p mayRefuse w x.1 x.2.1 x.2.2 w' := by
  unfold runBatches
  rw [wpM_bind]
  refine (batchLoop_spec (cfg := cfg) (ll := labels.len) (bl := batch.len) (ol := out.len) hs ho hp hS hSn hbs hbl hol n 0 ⟨⟨Buf.fill n false, labels, 0⟩, batch, out, false⟩ w [] (by omega) (by omega) hids hown
    (by intro pre e post h; simp at h) (by simp) ?_ rfl rfl).mono ?_
  · refine ⟨rfl, Nat.zero_le _, le_refl _, rfl, hll, fun v hv => ?_, fun v hv hor => ?_⟩
    · simp [hv, seqRun, SeqState.init, SeqState.Captured]
    · rcases hor with ⟨c, hc, -⟩ | h
      · simp [seqRun, SeqState.init] at hc
      · omega
  · rintro ⟨ec, r⟩ w1 ⟨h, -⟩
    dsimp only
    rcases h.out with ⟨h1, h2, evs, h3, h4, h5⟩ | ⟨h1, h2⟩
    · dsimp only at h1
      subst h1
      rw [if_neg (by simp)]
      have hnil : r.st.next = 0 → (seqRun ig evs).clusters = [] := fun h0 => List.length_eq_zero_iff.1 (by rw [← h5.next]; exact h0)
      by_cases h0 : r.st.next = 0
      · rw [if_pos h0]
        have key : ∀ line msg, WpM (do let e ← mkErr .noSolution "src/nng_batch_clustering.c" line msg; pure (e, r.st.labels, 0) : Scc.M (ErrorCode × Buf Int × Nat)) w1 fun x w' =>
            RunPost cfg (AnswerOk (Stored cfg A) n S (if rs then some radius else none)) n labels.len ig p mayRefuse w x.1 x.2.1 x.2.2 w' := by
          intro line msg
          rw [wpM_bind]
          refine wpM_mkErr fun w2 l1 l2 l3 => ?_
          rw [wpM_pure]
          exact ⟨l1.trans h.fails, l2.trans h.live, h.len, Or.inr ⟨rfl, by rw [l3], Or.inr (Or.inr ⟨rfl, evs, h3, h4, hnil h0, fun v hv => h5.labels v hv (Or.inr hv)⟩)⟩⟩
        cases hsd : r.searched with
        | false => simpa using key _ _
        | true => simpa using key _ _
      · rw [if_neg h0, wpM_pure]
        exact ⟨h.fails, h.live, h.len, Or.inl ⟨rfl, Nat.pos_of_ne_zero h0, by rw [h5.next]; exact h5.cap, evs, h3, h4, h5.next, fun v hv => h5.labels v hv (Or.inr hv)⟩⟩
    · dsimp only at h1 h2
      rw [if_pos (by rcases h2 with ⟨rfl, -⟩ | ⟨rfl, -⟩ <;> simp), wpM_pure]
      refine ⟨h.fails, h.live, h.len, Or.inr ⟨rfl, h1, ?_⟩⟩
      rcases h2 with h2 | h2
      · exact Or.inl h2
      · exact Or.inr (Or.inl h2)

theorem initPrimary_spec {n len : Nat} {primary : Option (Buf Nat)} {P : List Nat} (hall : primary = none → P = List.range n)
    (hp : ∀ b, primary = some b → P.length = len ∧ ∀ (i x : Nat), P[i]? = some x → b.get i = some x) (hr : ∀ x ∈ P, x < n) {w : World} (hu : w.UncheckedOk) :
    WpM (initPrimary n len primary) w fun r w' => w'.fails = w.fails ∧ w'.live = ptrOwn r + w.live ∧ w'.err = w.err ∧ PrimaryMarks n (r.map Blk.buf) fun v => decide (v ∈ P) := by
  unfold initPrimary
  cases primary with
  | none =>
    dsimp only
    rw [wpM_pure]
    refine ⟨rfl, by simp, rfl, fun v hv => ?_⟩
    rw [hall rfl]
    simpa using hv
  | some b =>
    dsimp only
    obtain ⟨h1, h2⟩ := hp b rfl
    rw [wpM_bind]
    refine wpM_allocU hu fun i w1 k1 k2 k3 => ?_
    rw [wpM_bind, wpM_useK]
    refine ⟨by simp [ptrIds, k2], ?_⟩
    unfold markPrimary
    refine wp_forLt (fun i m => m.len = n ∧ ∀ v, v < n → m.get v = some (decide (v ∈ P.take i))) (Nat.zero_le _) ⟨rfl, fun v hv => by simp [hv, ptrBuf]⟩ ?_ ?_
    · intro i m _ hi ⟨hm1, hm2⟩
      have hi' : i < P.length := by omega
      have hg := List.getElem?_eq_getElem hi'
      have hx := hr _ (List.getElem_mem hi')
      rw [wp_bind, wp_eq (h2 i _ hg), Buf.wp_set]
      refine ⟨by omega, by simpa using hm1, fun v hv => ?_⟩
      have hmem : v ∈ P.take (i + 1) ↔ v ∈ P.take i ∨ v = P[i] := by
        rw [List.take_add_one, hg, List.mem_append]
        simp
      by_cases hvx : v = P[i]
      · rw [decide_eq_true (hmem.2 (Or.inr hvx)), hvx, Buf.get_upd_self _ _ (by omega)]
      · rw [Buf.get_upd_ne _ _ hvx, hm2 v hv]
        simp only [Option.some.injEq, decide_eq_decide]
        rw [hmem]
        simp [hvx]
    · intro m ⟨hm1, hm2⟩
      rw [wpM_pure]
      refine ⟨k1, by simp [ptrSet, k2], k3, fun v hv => ?_⟩
      rw [← h1, List.take_length] at hm2
      exact hm2 v hv

theorem filter_mem_eq {n : Nat} {P : List Nat} (hs : P.Pairwise (· < ·)) (hr : ∀ x ∈ P, x < n) : (List.range n).filter (fun v => decide (v ∈ P)) = P := by
  refine List.Perm.eq_of_pairwise (le := (· < ·)) (fun a b _ _ h1 h2 => by omega) (List.pairwise_lt_range.filter _) hs ?_
  refine (List.perm_ext_iff_of_nodup (List.nodup_range.filter _) (hs.imp fun h => Nat.ne_of_lt h)).2 fun v => ?_
  simp only [List.mem_filter, List.mem_range, decide_eq_true_eq]
  exact ⟨fun h => h.2, fun h => ⟨hr v h, h⟩⟩

theorem batchesMain_spec {cfg : Cfg} {spi : Spi F} {A : Criterion F} {dist : Nat → Nat → F} {mayRefuse : Prop} {cl : Clustering} (hs : SpiOk spi cl.n A dist mayRefuse) {on : spi.NN} {own : Multiset Nat}
    (ho : hs.isNN on (List.range cl.n) own []) {o : Options F} {P : List Nat} (hP : P.Pairwise (· < ·)) (hall : o.primary = none → P = List.range cl.n)
    (hp : ∀ b, o.primary = some b → P.length = o.lenPrimary ∧ ∀ (i x : Nat), P[i]? = some x → b.get i = some x) (hr : ∀ x ∈ P, x < cl.n)
    (hS : 0 < o.sizeConstraint) (hSn : o.sizeConstraint ≤ cl.n) {bs : Nat} (hbs : 0 < bs) (hlb : ∀ lb, cl.label = some lb → cl.n ≤ lb.buf.len) (hk : cl.numClusters = 0)
    {batch out : Blk Nat} {assigned : Blk Bool} (hbl : bs ≤ batch.buf.len) (hol : bs * o.sizeConstraint ≤ out.buf.len) (has : assigned.buf = Buf.fill cl.n false)
    {w : World} {M : Multiset Nat} (hlive : w.live = {assigned.id} + ({out.id} + ({batch.id} + (own + (ptrOwn cl.label + M))))) (hu : w.UncheckedOk) :
    WpM (batchesMain cfg spi on cl o.sizeConstraint o.primaryMethod (decide (o.seedRadius = .useSupplied)) o.seedSupplied o.lenPrimary o.primary bs batch out assigned) w fun r w' =>
      w'.fails = w.fails ∧ BatchOutcome cfg A w cl.n o P mayRefuse M cl r w' := by
  unfold batchesMain
  rw [wpM_bind]
  have hlive' : w.live = ptrOwn cl.label + ({assigned.id} + ({out.id} + ({batch.id} + (own + M)))) := by rw [hlive]; abel
  refine (ensureLabels_spec hlive').mono ?_
  rintro ⟨ok, cl1⟩ w1 ⟨f1, h1⟩
  dsimp only at h1 ⊢
  rcases h1 with ⟨rfl, h1, h2, h3⟩ | ⟨rfl, lb, rfl, h3, h4, h5⟩
  · simp only [Bool.not_false, ↓reduceIte]
    rw [wpM_bind]
    refine wpM_freeId ({assigned.id} + ({out.id} + (own + (ptrOwn cl.label + M)))) (by rw [h3, hlive]; abel) fun w2 a1 a2 a3 => ?_
    rw [wpM_bind]
    refine wpM_freeId ({assigned.id} + (own + (ptrOwn cl.label + M))) (by rw [a2]; abel) fun w3 b1 b2 b3 => ?_
    rw [wpM_bind]
    refine wpM_freeId (own + (ptrOwn cl.label + M)) (by rw [b2]) fun w4 c1 c2 c3 => ?_
    rw [wpM_bind]
    refine (hs.nnClose on _ own [] w4 (ptrOwn cl.label + M) ho c2).mono ?_
    rintro - w5 ⟨d1, d2, d3, -⟩
    rw [wpM_bind]
    refine wpM_mkErr fun w6 e1 e2 e3 => ?_
    rw [wpM_pure]
    refine ⟨by rw [e1, d1, c1, b1, a1, f1], .failed _ cl1 w6 (Or.inr (Or.inl ⟨rfl, h1⟩)) (by rw [e3]) (Or.inl ⟨h2, by rw [e2, d3]⟩)⟩
  · simp only [Bool.not_true, Bool.false_eq_true, ↓reduceIte]
    have hll : cl.n ≤ lb.buf.len := by
      cases hl : cl.label with
      | none => rw [h5 hl]
      | some lb' => rw [← h4 lb' hl]; exact hlb lb' hl
    rw [wpM_bind]
    refine (initPrimary_spec hall hp hr (hu.congr f1)).mono ?_
    rintro pr w2 ⟨f2, l2, e2, hmarks⟩
    rw [wpM_bind]
    have hlive2 : w2.live = ptrOwn pr + ({lb.id} + ({assigned.id} + ({out.id} + ({batch.id} + (own + M))))) := by rw [l2, h3]
    rw [has]
    refine (runBatches_spec (cfg := cfg) (S := o.sizeConstraint) (bs := bs) (ig := decide (o.primaryMethod = .ignore)) (rs := decide (o.seedRadius = .useSupplied)) (radius := o.seedSupplied)
      (batch := batch.buf) (out := out.buf) (labels := lb.buf) hs ho hmarks hS hSn hbs hbl hol hll (w := w2) ?_ ?_).mono ?_
    · intro i hi
      rw [hlive2]
      simp only [List.cons_append, List.mem_cons, List.mem_append, ptrIds, List.not_mem_nil, or_false] at hi
      simp only [Multiset.mem_add, Multiset.mem_singleton]
      rcases hi with rfl | rfl | rfl | hi | rfl
      · tauto
      · tauto
      · tauto
      · left
        cases pr with
        | none => simp at hi
        | some b => simpa using hi
      · tauto
    · rw [hlive2]
      refine Multiset.le_iff_exists_add.2 ⟨ptrOwn pr + ({lb.id} + ({assigned.id} + ({out.id} + ({batch.id} + M)))), by abel⟩
    · rintro ⟨ec, l, k⟩ w3 h6
      have hl3 := h6.live
      have hlen := h6.len
      have hout := h6.out
      dsimp only at hl3 hlen hout ⊢
      rw [hlive2] at hl3
      rw [wpM_bind]
      refine wpM_freeId (ptrOwn pr + ({lb.id} + ({assigned.id} + ({out.id} + (own + M))))) (by rw [hl3]; abel) fun w4 a1 a2 a3 => ?_
      rw [wpM_bind]
      refine wpM_freeId (ptrOwn pr + ({lb.id} + ({assigned.id} + (own + M)))) (by rw [a2]; abel) fun w5 b1 b2 b3 => ?_
      rw [wpM_bind]
      refine wpM_freeId (ptrOwn pr + ({lb.id} + (own + M))) (by rw [b2]; abel) fun w6 c1 c2 c3 => ?_
      rw [wpM_bind]
      refine wpM_freePtr ({lb.id} + (own + M)) (by rw [c2]) fun w7 d1 d2 d3 => ?_
      rw [wpM_bind]
      refine (hs.nnClose on _ own [] w7 ({lb.id} + M) ho (by rw [d2]; abel)).mono ?_
      rintro - w8 ⟨g1, g2, g3, -⟩
      rw [wpM_pure]
      refine ⟨by rw [g1, d1, c1, b1, a1, h6.fails, f2, f1], ?_⟩
      have hlab : Labelled cl k lb.id l { cl with label := some ⟨lb.id, l⟩, external := cl.external && cl.label.isSome, numClusters := k } := by
        refine ⟨rfl, fun lb' hlb' => ?_, fun hnone => by rw [hlen]; exact h5 hnone⟩
        rw [h4 lb' hlb']; exact ⟨rfl, hlen⟩
      have hfil := filter_mem_eq hP hr
      have hR : (if decide (o.seedRadius = .useSupplied) = true then some o.seedSupplied else none) = seedLimit o := by simp [seedLimit]
      rw [hR] at hout
      have hf2 : w2.fails = w.fails := f2.trans f1
      rcases hout with ⟨rfl, q1, q2, evs, q3, q4, q5, q6⟩ | ⟨rfl, q1, q2⟩
      · rw [hfil] at q4
        exact .done _ w8 evs lb.id l ⟨q4, q3⟩ q5 q1 q2 q6 hlab g3
      · have herr : w8.err.code = ec := by rw [g2, d3, c3, b3, a3]; exact q1
        rcases q2 with ⟨rfl, q2⟩ | ⟨rfl, evs, m, q3, q4, q5, q6⟩ | ⟨rfl, evs, q3, q4, q5, q6⟩
        · refine .failed _ _ w8 (Or.inr (Or.inr ⟨rfl, ?_⟩)) herr (Or.inr ⟨lb.id, l, hlab, g3⟩)
          rwa [noFail_congr hf2] at q2
        · refine .failed _ _ w8 (Or.inl ⟨rfl, evs, (List.range' m (cl.n - m)).filter fun v => decide (v ∈ P), ⟨rfl, q4⟩, ?_, q6⟩) herr (Or.inr ⟨lb.id, l, hlab, g3⟩)
          rw [q5, ← List.filter_append]
          rw [List.range_eq_range']
          have := List.range'_append (s := 0) (m := m) (n := cl.n - m) (step := 1)
          rw [show 0 + 1 * m = m by omega, show m + (cl.n - m) = cl.n by omega] at this
          rw [this, ← List.range_eq_range']
          exact hfil
        · rw [hfil] at q4
          exact .noSeeds _ w8 evs lb.id l ⟨q4, q3⟩ q5 herr q6 hlab g3

theorem primary_sorted {o : Options F} {n : Nat} {P : List Nat} {lab c : Nat → Nat} (hv : ValidOptions o n P) (ha : OptionArrays n o P lab c) : P.Pairwise (· < ·) := by
  rcases hv.primary with ⟨h, -⟩ | ⟨-, -, h⟩
  · rw [ha.all h]; exact List.pairwise_lt_range
  · exact h

theorem batchArgsError_none {spi : Spi F} {cl : Clustering} {o : Options F} {P : List Nat} (hval : spi.valid = true) (hnp : spi.numPoints = cl.n) (hv : ValidOptions o cl.n P) (hk : cl.numClusters = 0)
    (hm : o.primaryMethod = .ignore ∨ o.primaryMethod = .anyNeighbor) :
    batchArgsError spi cl o.sizeConstraint o.primaryMethod (decide (o.seedRadius = .useSupplied)) o.seedSupplied o.lenPrimary o.primary = none := by
  unfold batchArgsError
  have h1 := hv.size_two
  have h2 := hv.size_le
  rw [if_neg (by simp [hval]), if_neg (by simp [hnp]), if_neg (by omega), if_neg (by omega), if_neg (by rcases hm with h | h <;> simp [h]), if_neg, if_neg, if_neg, if_neg (by simp [hk])]
  · rcases hv.primary with ⟨h3, h4⟩ | ⟨h3, h4, -⟩
    · simp [h4]
    · cases hp : o.primary with
      | none => exact absurd hp h3
      | some b => simp
  · rcases hv.primary with ⟨h3, h4⟩ | ⟨h3, h4, -⟩
    · simp [h3]
    · simp [h4]
  · rintro ⟨h3, h4⟩
    rw [hv.seedRadius.2.2 (by simpa using h3)] at h4
    cases h4

/-- The outcomes of clustering in batches with valid options. The unassigned method must be one that batches support. -/
theorem clusterBatches_spec {cfg : Cfg} {spi : Spi F} {A : Criterion F} {dist : Nat → Nat → F} {mayRefuse : Prop} {cl : Clustering} (hs : SpiOk spi cl.n A dist mayRefuse)
    {o : Options F} {P : List Nat} {lab c : Nat → Nat} (hval : spi.valid = true) (hv : ValidOptions o cl.n P) (ha : OptionArrays cl.n o P lab c)
    (hm : o.primaryMethod = .ignore ∨ o.primaryMethod = .anyNeighbor) (hfit : BatchFits o cl.n) (hlb : ∀ lb, cl.label = some lb → cl.n ≤ lb.buf.len) (hk : cl.numClusters = 0)
    {w : World} {M : Multiset Nat} (hlive : w.live = ptrOwn cl.label + M) (hu : w.UncheckedOk) :
    WpM (clusterBatches cfg spi cl o.sizeConstraint o.primaryMethod (decide (o.seedRadius = .useSupplied)) o.seedSupplied o.lenPrimary o.primary o.batchSize) w fun r w' =>
      w'.fails = w.fails ∧ BatchOutcome cfg A w cl.n o P mayRefuse M cl r w' := by
  have hS := hv.size_two
  have hSn := hv.size_le
  obtain ⟨hb1, hb2⟩ := effBatch_eq hfit hS
  have hbpos : 0 < batchLen o cl.n := by
    unfold batchLen
    split <;> omega
  unfold clusterBatches
  rw [batchArgsError_none hval hs.numPoints hv hk hm]
  dsimp only
  rw [wpM_bind]
  refine (hs.nnInit cl.n none (List.range cl.n) w (by simp [ArrHolds]) (by simp) (by omega) List.nodup_range (by simp) (by simp [arrIds])).mono ?_
  rintro (_ | on) w1 ⟨f1, e1, h1⟩
  · dsimp only at h1 ⊢
    rw [wpM_bind]
    refine wpM_mkErr fun w2 l1 l2 l3 => ?_
    rw [wpM_pure]
    exact ⟨l1.trans f1, .failed _ cl w2 (Or.inr (Or.inr ⟨rfl, h1.2⟩)) (by rw [l3]) (Or.inl ⟨Untouched.refl cl, by rw [l2, h1.1, hlive]⟩)⟩
  · dsimp only at h1 ⊢
    obtain ⟨own, ho, hl1⟩ := h1
    rw [hlive] at hl1
    have hfail : ∀ (b : Option (Blk Nat)) (out : Option (Blk Nat)) (as : Option (Blk Bool)) (w4 : World), w4.fails = w.fails → ¬ w.NoFail →
        w4.live = ptrOwn as + (ptrOwn out + (ptrOwn b + (own + (ptrOwn cl.label + M)))) →
        WpM (do
          freePtr b
          freePtr out
          freePtr as
          let _ ← spi.nnClose on
          let e ← mkErr .noMemory "src/nng_batch_clustering.c" 125
          pure (e, cl) : Scc.M (ErrorCode × Clustering)) w4 fun r w' => w'.fails = w.fails ∧ BatchOutcome cfg A w cl.n o P mayRefuse M cl r w' := by
      intro b out as w4 hf hnf hl
      rw [wpM_bind]
      refine wpM_freePtr (ptrOwn as + (ptrOwn out + (own + (ptrOwn cl.label + M)))) (by rw [hl]; abel) fun w5 a1 a2 a3 => ?_
      rw [wpM_bind]
      refine wpM_freePtr (ptrOwn as + (own + (ptrOwn cl.label + M))) (by rw [a2]; abel) fun w6 b1 b2 b3 => ?_
      rw [wpM_bind]
      refine wpM_freePtr (own + (ptrOwn cl.label + M)) b2 fun w7 c1 c2 c3 => ?_
      rw [wpM_bind]
      refine (hs.nnClose on _ own [] w7 (ptrOwn cl.label + M) ho c2).mono ?_
      rintro - w8 ⟨d1, d2, d3, -⟩
      rw [wpM_bind]
      refine wpM_mkErr fun w9 g1 g2 g3 => ?_
      rw [wpM_pure]
      exact ⟨by rw [g1, d1, c1, b1, a1, hf], .failed _ cl w9 (Or.inr (Or.inl ⟨rfl, hnf⟩)) (by rw [g3]) (Or.inl ⟨Untouched.refl cl, by rw [g2, d3]⟩)⟩
    rw [wpM_bind]
    refine wpM_alloc (fun w2 a0 a1 a2 a3 => ?_) (fun i1 w2 a1 a2 a3 => ?_)
    · have hnf : ¬ w.NoFail := by rwa [noFail_congr f1] at a0
      rw [wpM_bind]
      refine wpM_alloc (fun w3 b0 b1 b2 b3 => ?_) (fun i2 w3 b1 b2 b3 => ?_)
      all_goals
        rw [wpM_bind]
        refine wpM_alloc (fun w4 c0 c1 c2 c3 => ?_) (fun i3 w4 c1 c2 c3 => ?_)
        all_goals
          refine hfail _ _ _ w4 (by rw [c1, b1, a1, f1]) hnf (by rw [c2, b2, a2, hl1]; simp)
    · rw [wpM_bind]
      refine wpM_alloc (fun w3 b0 b1 b2 b3 => ?_) (fun i2 w3 b1 b2 b3 => ?_)
      · have hnf : ¬ w.NoFail := by rwa [noFail_congr (a1.trans f1)] at b0
        rw [wpM_bind]
        refine wpM_alloc (fun w4 c0 c1 c2 c3 => ?_) (fun i3 w4 c1 c2 c3 => ?_)
        all_goals
          refine hfail _ _ _ w4 (by rw [c1, b1, a1, f1]) hnf (by rw [c2, b2, a2, hl1]; simp)
      · rw [wpM_bind]
        refine wpM_alloc (fun w4 c0 c1 c2 c3 => ?_) (fun i3 w4 c1 c2 c3 => ?_)
        · have hnf : ¬ w.NoFail := by rwa [noFail_congr (b1.trans (a1.trans f1))] at c0
          refine hfail _ _ _ w4 (by rw [c1, b1, a1, f1]) hnf (by rw [c2, b2, a2, hl1]; simp)
        · dsimp only
          have hff : w4.fails = w.fails := by rw [c1, b1, a1, f1]
          rw [hb1]
          refine (batchesMain_spec hs ho (primary_sorted hv ha) ha.all ha.primary ha.range (by omega) hSn hbpos hlb hk (batch := ⟨i1, Buf.raw (batchLen o cl.n)⟩)
            (out := ⟨i2, Buf.raw (u32 (o.sizeConstraint * batchLen o cl.n))⟩) (assigned := ⟨i3, Buf.fill cl.n false⟩) (le_refl _) ?_ rfl (w := w4) (M := M) ?_ (hu.congr hff)).mono ?_
          · rw [hb1] at hb2
            show _ ≤ u32 _
            rw [hb2, Nat.mul_comm]
          · rw [c2, b2, a2, hl1]
          · rintro r w5 ⟨g1, g2⟩
            refine ⟨g1.trans hff, ?_⟩
            cases g2 with
            | done cl' _ evs id l run count pos cap labels labelled live => exact .done cl' _ evs id l run count pos cap labels labelled live
            | failed e cl' _ cause err after =>
              exact .failed e cl' _ (cause.imp hff _root_.id _root_.id) err after
            | noSeeds cl' _ evs id l run none err labels labelled live => exact .noSeeds cl' _ evs id l run none err labels labelled live

end Scc
