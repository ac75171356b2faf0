/-
Clustering in batches in a build with assertions: in a state that is reached, the functions with assertions do the same as those without.
-/
import Verif.Model.AssertBatches
import Verif.Proofs.Assert
import Verif.Proofs.BatchRun

namespace Scc

variable {F : Type} [FloatOps F]

/-- The check of the neighbours of one query. -/
theorem checkBlock_spec {cfg : Cfg} {n ll cur S : Nat} {out : Buf Nat} {i : Nat} {a : List Nat} {st : SeqState} {b : BatchSt} (h : BRep cfg n ll cur st b)
    (hal : a.length = S) (har : a ⊆ List.range n) (hout : ∀ t x, a[t]? = some x → out.get (i * S + t) = some x) :
    Wp (forLtB (i * S) (i * S + S) () (fun j _ => do
        let a ← out.get j
        let m ← b.assigned.get a
        if m then pure (Ctl.stop a) else pure (Ctl.next ()))) fun c => match c with
      | .next _ => ∀ x ∈ a, ¬ st.Captured x
      | .stop x => x ∈ a ∧ st.Captured x := by
  refine wp_forLtB (fun j _ => ∀ t x, i * S + t < j → a[t]? = some x → ¬ st.Captured x) (fun x => x ∈ a ∧ st.Captured x) (by omega)
    (fun t x h => by omega) ?_ ?_ (fun r h => h)
  · intro j _ h1 h2 hi
    obtain ⟨t, rfl⟩ : ∃ t, j = i * S + t := ⟨j - i * S, by omega⟩
    have ht : t < a.length := by omega
    have hg := List.getElem?_eq_getElem ht
    rw [wp_bind, wp_eq (hout t _ hg)]
    have hxn : a[t] < n := List.mem_range.1 (har (List.getElem_mem ht))
    rw [wp_bind, wp_eq (h.assigned _ hxn)]
    by_cases hx : st.Captured a[t]
    · rw [if_pos (by simpa using hx), wp_pure]
      exact ⟨List.getElem_mem ht, hx⟩
    · rw [if_neg (by simpa using hx), wp_pure]
      dsimp only
      intro t' x' h3 h4
      rcases Nat.lt_or_eq_of_le (show t' ≤ t by omega) with h5 | rfl
      · exact hi t' x' (by omega) h4
      · rw [hg] at h4; rw [← Option.some.inj h4]; exact hx
  · intro _ hi x hx
    obtain ⟨t, ht⟩ := List.mem_iff_getElem?.1 hx
    have : t < a.length := (List.getElem?_eq_some_iff.1 ht).1
    exact hi t x (by omega) ht

theorem label_of_captured {st : SeqState} {v : Nat} (h : st.Captured v) : ∃ l, st.label v = some l ∧ l < st.clusters.length := by
  unfold SeqState.label
  rw [captured_iff] at h
  cases hf : st.clusters.findIdx? (fun c => decide (v ∈ c)) with
  | none => rw [hf] at h; simp at h
  | some l =>
    refine ⟨l, rfl, ?_⟩
    exact (List.findIdx?_eq_some_iff_getElem.1 hf).1

/-- One answered query. -/
theorem batchStepDbg_eq {cfg : Cfg} (hcfg : cfg.Valid) {n ll cur S : Nat} {ig : Bool} {okq out : Buf Nat} {i q : Nat} {a : List Nat} {st : SeqState} {b : BatchSt} (h : BRep cfg n ll cur st b)
    (hq : okq.get i = some q) (hqn : q < n) (hqc : q < cur) (hS : 0 < S) (hal : a.length = S) (han : a.Nodup) (har : a ⊆ List.range n)
    (hout : ∀ t x, a[t]? = some x → out.get (i * S + t) = some x) (hj : st.joined q = none) :
    batchStepDbg cfg S ig okq out i b = batchStep cfg S ig okq out i b := by
  unfold batchStepDbg batchStep
  refine get_both hq (get_both (h.assigned q hqn) ?_)
  refine ite_both (fun _ => rfl) fun hcap => ?_
  have hcap : ¬ st.Captured q := by simpa using hcap
  refine obind_eq rfl (checkBlock_spec h hal har hout) ?_
  rintro (_ | x) hc
  · dsimp only at hc ⊢
    refine ite_both (fun _ => rfl) fun hmax => ?_
    rw [get_bind (h.assigned q hqn), asrt_bind (by simpa using hcap)]
    have hrange : ∀ t (ht : t < a.length), a[t] < n := fun t ht => List.mem_range.1 (har (List.getElem_mem ht))
    have hstep : ∀ (j : Nat) (b : BatchSt), i * S ≤ j → j < i * S + S - 1 → TRep cfg n ll cur st (a.take (j - i * S)) b →
        (do let a ← out.get j
            let aa ← b.assigned.get a
            asrt (aa = false)
            b.take a : Option BatchSt) = (do let a ← out.get j; b.take a) ∧ Wp (do let a ← out.get j; b.take a) (TRep cfg n ll cur st (a.take (j + 1 - i * S))) := by
      intro j b h1 h2 hb
      obtain ⟨t, rfl⟩ : ∃ t, j = i * S + t := ⟨j - i * S, by omega⟩
      have ht : t < a.length := by omega
      have hg := List.getElem?_eq_getElem ht
      have hxn := hrange t ht
      rw [show i * S + t - i * S = t by omega] at hb
      have hnot : a[t] ∉ a.take t := by
        intro hm
        obtain ⟨k, hk1, hk2⟩ := List.mem_take_iff_getElem.1 hm
        have := (List.Nodup.getElem_inj_iff han).1 hk2
        omega
      refine ⟨?_, ?_⟩
      · rw [get_bind (hout t _ hg), get_bind (hb.assigned _ hxn), get_bind (hout t _ hg), asrt_bind]
        have := hc a[t] (List.getElem_mem ht)
        simp [this, hnot]
      · rw [wp_bind, wp_eq (hout t _ hg)]
        refine (hb.take hxn).mono fun b' hb' => ?_
        rw [show i * S + t + 1 - i * S = t + 1 by omega, List.take_add_one, hg]
        exact hb'
    refine obind_eq (Q := fun b => TRep cfg n ll cur st a.dropLast b) ?_ ?_ ?_
    · exact forLt_eq (fun j b => TRep cfg n ll cur st (a.take (j - i * S)) b) (by simpa using h.toT) hstep
    · refine wp_forLt (fun j b => TRep cfg n ll cur st (a.take (j - i * S)) b) (by omega) (by simpa using h.toT) (fun j b h1 h2 h3 => (hstep j b h1 h2 h3).2) ?_
      intro b1 hb1
      rw [show i * S + S - 1 - i * S = S - 1 by omega, ← hal, ← List.dropLast_eq_take] at hb1
      exact hb1
    · intro b1 hb1
      refine get_both (hb1.assigned q hqn) ?_
      have hlast : Wp (lastMember out (i * S + S - 1) q (decide (st.Captured q ∨ q ∈ a.dropLast))) fun p => p < n ∧ ¬ st.Captured p ∧ p ∉ a.dropLast ∧ q ∈ a.dropLast ++ [p] := by
        unfold lastMember
        by_cases hqd : q ∈ a.dropLast
        · rw [if_pos (by simp [hqd])]
          have ht : S - 1 < a.length := by omega
          have hg := List.getElem?_eq_getElem ht
          have hd : i * S + S - 1 = i * S + (S - 1) := by omega
          rw [hd, wp_eq (hout (S - 1) _ hg)]
          refine ⟨hrange _ ht, hc _ (List.getElem_mem ht), ?_, by simp [hqd]⟩
          intro hm
          rw [List.dropLast_eq_take] at hm
          obtain ⟨k, hk1, hk2⟩ := List.mem_take_iff_getElem.1 hm
          have := (List.Nodup.getElem_inj_iff han).1 hk2
          omega
        · rw [if_neg (by simp [hqd, hcap]), wp_some]
          exact ⟨hqn, hcap, hqd, by simp⟩
      refine obind_eq rfl hlast fun p ⟨hp1, hp2, hp3, hp4⟩ => ?_
      rw [get_bind (hb1.assigned p hp1), asrt_bind (by simp [hp2, hp3])]
      refine obind_eq rfl (hb1.take hp1) fun b2 hb2 => ?_
      rw [get_bind (hb2.labels q hqn (Or.inl hp4)), asrt_bind (by rw [if_pos hp4, hb2.next])]
  · dsimp only at hc ⊢
    obtain ⟨hxa, hxc⟩ := hc
    have hxn : x < n := List.mem_range.1 (har hxa)
    cases ig with
    | true => rfl
    | false =>
      have hlq : st.label q = none := by
        unfold SeqState.label
        have : st.clusters.findIdx? (fun c => decide (q ∈ c)) = none := by
          rw [captured_iff] at hcap
          simpa using hcap
        rw [this, hj]
        rfl
      obtain ⟨l, hl1, hl2⟩ := label_of_captured hxc
      have hcap' := h.cap
      have hna := hcfg.na_out
      rw [if_pos (by simp), if_pos (by simp), get_bind (h.assigned x hxn), asrt_bind (by simpa using hxc), get_bind (h.labels q hqn (Or.inr hqc)), asrt_bind (by rw [hlq]; rfl),
        get_bind (h.labels x hxn (Or.inl hxc)), asrt_bind (by rw [hl1]; show (l : Int) ≠ cfg.na; omega), get_bind (h.assigned q hqn), asrt_bind (by simpa using hcap)]

theorem joined_foldl {ig : Bool} {v : Nat} : ∀ (evs : List (Nat × Option (List Nat))) (st : SeqState), v ∉ evs.map Prod.fst → (evs.foldl (SeqState.consider ig) st).joined v = st.joined v
  | [], _, _ => rfl
  | e :: evs, st, hv => by
    rw [List.map_cons, List.mem_cons] at hv
    rw [List.foldl_cons, joined_foldl evs _ (fun h' => hv (Or.inr h')), joined_consider (fun h' => hv (Or.inl h'))]

/-- The answered queries of a batch. -/
theorem batchStepsDbg_eq {cfg : Cfg} (hcfg : cfg.Valid) {n ll cur S : Nat} {ig : Bool} {okq out : Buf Nat} {res : List (Nat × List Nat)} {st : SeqState} {b : BatchSt} (h : BRep cfg n ll cur st b)
    (hq : ∀ (i : Nat) p, res[i]? = some p → okq.get i = some p.1 ∧ ∀ t x, p.2[t]? = some x → out.get (i * S + t) = some x) (hS : 0 < S)
    (hr : ∀ p ∈ res, p.1 < n ∧ p.1 < cur ∧ p.2.length = S ∧ p.2.Nodup ∧ p.2 ⊆ List.range n) (hnd : (res.map Prod.fst).Nodup) (hj : ∀ p ∈ res, st.joined p.1 = none) :
    forLtB 0 res.length b (batchStepDbg cfg S ig okq out) = forLtB 0 res.length b (batchStep cfg S ig okq out) := by
  refine forLtB_eq (fun i b => BRep cfg n ll cur (((res.take i).map fun p => (p.1, some p.2)).foldl (SeqState.consider ig) st) b) (by simpa using h) ?_
  intro i b1 _ hi hb
  have hg := List.getElem?_eq_getElem hi
  obtain ⟨h1, h2⟩ := hq i _ hg
  obtain ⟨h3, h4, h5, h6, h7⟩ := hr _ (List.getElem_mem hi)
  refine ⟨batchStepDbg_eq hcfg hb h1 h3 h4 hS h5 h6 h7 h2 ?_, (batchStep_spec hb h1 h3 h4 hS h5 h6 h7 h2).mono fun c hc => ?_⟩
  · rw [joined_foldl]
    · exact hj _ (List.getElem_mem hi)
    · rw [List.map_map]
      intro hm
      obtain ⟨e, he, heq⟩ := List.mem_map.1 hm
      obtain ⟨k, hk1, rfl⟩ := List.mem_take_iff_getElem.1 he
      have := (List.Nodup.getElem_inj_iff hnd (i := k) (j := i) (hi := by rw [List.length_map]; omega) (hj := by rw [List.length_map]; omega)).1 (by simpa using heq)
      omega
  · have hfold : (((res.take (i + 1)).map fun p => (p.1, some p.2)).foldl (SeqState.consider ig) st) =
        (((res.take i).map fun p => (p.1, some p.2)).foldl (SeqState.consider ig) st).consider ig (res[i].1, some res[i].2) := by
      rw [List.take_add_one, hg, List.map_append, List.foldl_append]
      rfl
    cases c with
    | next b2 => dsimp only at hc ⊢; rw [hfold]; exact hc
    | stop b2 => trivial

theorem answered_fst_sublist (ans : List (Nat × Option (List Nat))) : ((answered ans).map Prod.fst).Sublist (ans.map Prod.fst) := by
  induction ans with
  | nil => simp [answered]
  | cons e ans ih =>
    obtain ⟨q, _ | a⟩ := e
    · simpa [answered] using ih.trans (List.sublist_cons_self _ _)
    · simpa [answered] using ih

theorem batchLoopDbg_eq {cfg : Cfg} (hcfg : cfg.Valid) {spi : Spi F} {n : Nat} {A : Criterion F} {dist : Nat → Nat → F} {mayRefuse : Prop} (hs : SpiOk spi n A dist mayRefuse) {o : spi.NN} {own : Multiset Nat}
    (ho : hs.isNN o (List.range n) own []) {ids : BatchIds} {S bs ll bl ol : Nat} {ig rs : Bool} {radius : F} {primary : Option (Buf Bool)} {p : Nat → Bool}
    (hp : PrimaryMarks n primary p) (hS : 0 < S) (hSn : S ≤ n) (hbs : 0 < bs) (hbl : bs ≤ bl) (hol : bs * S ≤ ol) (fuel : Nat) :
    ∀ (cur : Nat) (r : RunSt) (w : World) (evs : List (Nat × Option (List Nat))), n ≤ cur + fuel → cur ≤ n →
    (∀ i ∈ ids.batch :: ids.out :: ids.assigned :: ids.primary ++ ids.label, i ∈ w.live) → own ≤ w.live →
    GoodAnswers ig (AnswerOk (Stored cfg A) n S (if rs then some radius else none)) evs → evs.map Prod.fst = (List.range cur).filter p → BRep cfg n ll cur (seqRun ig evs) r.st →
    r.batch.len = bl → r.out.len = ol →
    batchLoopDbg cfg spi o ids n S ig rs radius primary bs fuel cur r w = batchLoop cfg spi o ids n S ig rs radius primary bs fuel cur r w := by
  induction fuel with
  | zero =>
    intro cur r w evs h1 h2 hids hown hg hm hrep hb hout
    unfold batchLoopDbg batchLoop
    rw [if_neg (by omega)]
  | succ fuel ih =>
    intro cur r w evs h1 h2 hids hown hg hm hrep hb hout
    unfold batchLoopDbg batchLoop
    by_cases hcur : cur < n
    swap
    · rw [if_neg hcur, if_neg hcur]
    rw [if_pos hcur, if_pos hcur]
    dsimp only
    have hj : ∀ v, cur ≤ v → (seqRun ig evs).joined v = none := by
      intro v hv
      refine joined_seqRun ?_
      rw [hm]
      intro h
      have := List.mem_range.1 (List.mem_of_mem_filter h)
      omega
    refine mbind_eq rfl (wpM_useK.2 ⟨fun i hi => hids i (by simp at hi ⊢; tauto), (fillBatch_spec hrep hp hcur hbs (by omega) hj).mono fun a ha => ⟨rfl, ha⟩⟩ : WpM _ w fun a w' =>
      w' = w ∧ _) ?_
    rintro ⟨labels, batch, inb, cur'⟩ w' ⟨rfl, k1, k2, k3, k4, k5, k6, k7, k8⟩
    dsimp only at k1 k2 k3 k4 k5 k6 k7 k8 ⊢
    by_cases hin : inb = 0
    · rw [if_pos hin, if_pos hin, asrtM_bind (k6 (by omega))]
    · rw [if_neg hin, if_neg hin]
      have hQr : ∀ q ∈ batchQueries (seqRun ig evs) p cur cur', q < n ∧ q < cur' ∧ cur ≤ q := by
        intro q hq
        have := List.mem_range'_1.1 (List.mem_of_mem_filter (List.mem_of_mem_filter hq))
        omega
      refine mbind_eq (Q := fun _ w2 => w2 = w') rfl ?_ ?_
      · unfold touch
        rw [wpM_useK]
        exact ⟨fun i hi => hids i (by simp at hi ⊢; tauto), by rw [wp_some]⟩
      rintro - w2 rfl
      have hcall : NNCall n (List.range n) w2 [] inb (some ⟨[ids.batch], batch⟩) (batchQueries (seqRun ig evs) p cur cur') S rs .same r.out :=
        { holds := k8
          len := k7
          live := by simp
          qlive := by
            intro i hi
            exact hids i (by simp [arrIds] at hi ⊢; tauto)
          pos := by omega
          range := fun q hq => (hQr q hq).1
          kpos := hS
          kle := by simpa using hSn
          room := by
            rw [hout]
            exact le_trans (Nat.mul_le_mul_right S k5) hol
          oroom := Or.inr (by show inb ≤ batch.len; omega)
          notNull := by simp }
      refine mbind_eq rfl (hs.nnSearch o (List.range n) own [] inb _ _ S rs radius .same r.out w2 ho hown hcall) ?_
      rintro (_ | res) w1 ⟨f1, f2, f3, h⟩
      · rfl
      dsimp only at h ⊢
      obtain ⟨g1, g2, ans, g3, g4, g5⟩ := h
      have g2' : res.outQ.len = batch.len := g2 (by simp)
      rw [g5.numOk]
      have hlenA : ∀ e ∈ answered ans, e.2.length = S := by
        intro e he
        obtain ⟨e', he', heq⟩ := List.mem_filterMap.1 he
        obtain ⟨q, a⟩ := e'
        cases a with
        | none => simp at heq
        | some a =>
          simp at heq
          subst heq
          exact ((g4 _ he').2.2 a rfl).1
      refine mbind_eq rfl (wpM_useK.2 ⟨fun i hi => by rw [f3]; exact hids i (by simp at hi ⊢; tauto), (sortBlocks_spec hlenA g5.neighbors).mono fun a ha => ⟨rfl, ha⟩⟩ : WpM _ w1 fun a w' =>
        w' = w1 ∧ _) ?_
      rintro nn w' ⟨rfl, s1, s2⟩
      have g3 : (storedAnswers cfg ans).map Prod.fst = batchQueries (seqRun ig evs) p cur cur' := by
        rw [← g3]; simp [storedAnswers, Function.comp_def]
      have g4 : ∀ e ∈ storedAnswers cfg ans, AnswerOk (Stored cfg A) n S (if rs then some radius else none) e.1 e.2 := by
        intro e he
        obtain ⟨e', he', rfl⟩ := List.mem_map.1 he
        exact AnswerOk.stored (g4 e' he') cfg
      have hlen : (answered ans).length = (answered (storedAnswers cfg ans)).length := by rw [answered_stored, List.length_map]
      have hq : ∀ (i : Nat) e, (answered (storedAnswers cfg ans))[i]? = some e → res.outQ.get i = some e.1 ∧ ∀ t x, e.2[t]? = some x → nn.get (i * S + t) = some x := by
        intro i e he
        rw [answered_stored, List.getElem?_map] at he
        obtain ⟨e', he', rfl⟩ := Option.map_eq_some_iff.1 he
        exact ⟨g5.queries (by simp) i e' he', s2 i e' he'⟩
      obtain ⟨evs', e1, e2, e3⟩ := extend_answers (C := AnswerOk (Stored cfg A) n S (if rs then some radius else none)) hg hm k3.le g3 g4
      rw [hlen]
      have hfst : ∀ e ∈ answered (storedAnswers cfg ans), e.1 ∈ batchQueries (seqRun ig evs) p cur cur' := by
        intro e he
        rw [← g3]
        exact (answered_fst_sublist _).subset (List.mem_map_of_mem he)
      have hr : ∀ e ∈ answered (storedAnswers cfg ans), e.1 < n ∧ e.1 < cur' ∧ e.2.length = S ∧ e.2.Nodup ∧ e.2 ⊆ List.range n := by
        intro e he
        obtain ⟨q1, q2, -⟩ := hQr _ (hfst e he)
        refine ⟨q1, q2, ?_⟩
        obtain ⟨e', he', heq⟩ := List.mem_filterMap.1 he
        obtain ⟨q, a⟩ := e'
        cases a with
        | none => simp at heq
        | some a =>
          simp at heq
          subst heq
          exact (g4 _ he').2.2 a rfl
      refine mbind_eq (useK_eq (batchStepsDbg_eq hcfg (st := seqRun ig evs) k1 hq hS hr ?_ fun e he => hj _ (hQr _ (hfst e he)).2.2)) (wpM_useK.2 ⟨fun i hi => by rw [f3]; exact hids i (by simp at hi ⊢; tauto),
        (batchSteps_spec (st := seqRun ig evs) (ig := ig) (b := { r.st with labels := labels }) k1 (res := answered (storedAnswers cfg ans)) hq hS hr).mono fun a ha => ⟨rfl, ha⟩⟩ : WpM _ w' fun a w'' =>
        w'' = w' ∧ _) ?_
      · refine (answered_fst_sublist _).nodup ?_
        rw [g3]
        exact ((List.nodup_range').filter _).filter _
      · rintro (b' | b') w'' ⟨rfl, hb'⟩
        · dsimp only at hb' ⊢
          rw [foldl_answered, ← e3] at hb'
          exact ih cur' ⟨b', res.outQ, nn, true⟩ w'' evs' (by omega) k4 (fun i hi => by rw [f3]; exact hids i hi) (by rw [f3]; exact hown) e1 e2 hb' (by show res.outQ.len = bl; omega)
            (by show nn.len = ol; omega)
        · rfl

/-- Without radius, a run that makes no cluster has considered no point. -/
theorem seqRun_nil {ig : Bool} {A : Criterion F} {n S : Nat} {evs : List (Nat × Option (List Nat))} (hg : GoodAnswers ig (AnswerOk A n S none) evs) (h : (seqRun ig evs).clusters = []) : evs = [] := by
  cases evs with
  | nil => rfl
  | cons e evs =>
    exfalso
    rcases hg [] e evs rfl with ⟨c, hc, -⟩ | hok
    · simp [seqRun, SeqState.init] at hc
    · obtain ⟨q, a⟩ := e
      cases a with
      | none => exact hok.2.1 rfl rfl
      | some a =>
        have h1 : (SeqState.init.consider ig (q, some a)).clusters = [seedCluster q a] := by
          have hnc : ∀ v, ¬ SeqState.init.Captured v := by rintro v ⟨c, hc, -⟩; simp [SeqState.init] at hc
          have hnone : a.find? (fun x => decide (SeqState.init.Captured x)) = none := List.find?_eq_none.2 fun x _ => by simpa using hnc x
          unfold SeqState.consider
          rw [if_neg (hnc _)]
          dsimp only
          rw [hnone]
          rfl
        have h2 := length_clusters_foldl ig evs (SeqState.init.consider ig (q, some a))
        have h3 : (evs.foldl (SeqState.consider ig) (SeqState.init.consider ig (q, some a))).clusters = [] := h
        rw [h3, h1] at h2
        simp at h2

theorem runBatchesDbg_eq {cfg : Cfg} (hcfg : cfg.Valid) {spi : Spi F} {cl : Clustering} {A : Criterion F} {dist : Nat → Nat → F} {mayRefuse : Prop} (hs : SpiOk spi cl.n A dist mayRefuse) {o : spi.NN}
    {own : Multiset Nat} (ho : hs.isNN o (List.range cl.n) own []) {ids : BatchIds} {S bs : Nat} {ig rs : Bool} {radius : F} {primary : Option (Buf Bool)} {p : Nat → Bool}
    (hp : PrimaryMarks cl.n primary p) (hS : 2 ≤ S) (hSn : S ≤ cl.n) (hbs : 0 < bs) {batch out : Buf Nat} {labels : Buf Int} (hbl : bs ≤ batch.len) (hol : bs * S ≤ out.len) (hll : cl.n ≤ labels.len)
    (hinit : cl.isInitialized cfg = true) (hlab : cl.label.isSome = true) (hk : cl.numClusters = 0) (hrad : rs = true → FloatOps.lt FloatOps.zero radius = true)
    {w : World} (hids : ∀ i ∈ ids.batch :: ids.out :: ids.assigned :: ids.primary ++ ids.label, i ∈ w.live) (hown : own ≤ w.live) :
    runBatchesDbg cfg spi o cl ids cl.n S ig rs radius primary bs batch out (Buf.fill cl.n false) labels w =
      runBatches cfg spi o ids cl.n S ig rs radius primary bs batch out (Buf.fill cl.n false) labels w := by
  have hmax : cl.n ≤ cfg.pointMax := by
    unfold Clustering.isInitialized at hinit
    by_contra hlt
    rw [if_pos (c := cfg.pointMax < cl.n) (by omega)] at hinit
    split at hinit
    · cases hinit
    · split at hinit <;> cases hinit
  have hrep : BRep cfg cl.n labels.len 0 (seqRun ig []) ⟨Buf.fill cl.n false, labels, 0⟩ := by
    refine ⟨rfl, Nat.zero_le _, le_refl _, rfl, hll, fun v hv => ?_, fun v hv hor => ?_⟩
    · simp [hv, seqRun, SeqState.init, SeqState.Captured]
    · rcases hor with ⟨c, hc, -⟩ | h
      · simp [seqRun, SeqState.init] at hc
      · omega
  have hgood : GoodAnswers ig (AnswerOk (Stored cfg A) cl.n S (if rs then some radius else none)) [] := by intro pre e post h; simp at h
  unfold runBatchesDbg runBatches
  rw [asrtM_bind hinit, asrtM_bind hlab, asrtM_bind hk, asrtM_bind hS, asrtM_bind hSn, asrtM_bind (by cases rs <;> simp_all), asrtM_bind hbs, asrtM_bind hmax]
  refine mbind_eq (batchLoopDbg_eq hcfg hs ho hp (by omega) hSn hbs hbl hol cl.n 0 ⟨⟨Buf.fill cl.n false, labels, 0⟩, batch, out, false⟩ w [] (by omega) (by omega) hids hown hgood (by simp) hrep rfl rfl)
    (batchLoop_spec (cfg := cfg) (ll := labels.len) (bl := batch.len) (ol := out.len) hs ho hp (by omega) hSn hbs hbl hol cl.n 0 ⟨⟨Buf.fill cl.n false, labels, 0⟩, batch, out, false⟩ w [] (by omega)
      (by omega) hids hown hgood (by simp) hrep rfl rfl) ?_
  rintro ⟨ec, r⟩ w1 ⟨h, hse⟩
  dsimp only at h hse ⊢
  by_cases hec : ec = .ok
  swap
  · rw [if_pos hec, if_pos hec]
  rw [if_neg (c := ec ≠ .ok) (by simpa using hec), if_neg (c := ec ≠ .ok) (by simpa using hec)]
  by_cases h0 : r.st.next = 0
  swap
  · rw [if_neg h0, if_neg h0]
  rw [if_pos h0, if_pos h0]
  cases hsd : r.searched with
  | false =>
    rw [if_pos (c := (!false) = true) rfl, if_pos (c := (!false) = true) rfl, asrtM_bind]
    cases primary with
    | some b => rfl
    | none =>
      obtain ⟨c, hc, -⟩ := hse.none hec hsd 0 (Nat.zero_le _) (by omega) (hp 0 (by omega))
      simp [seqRun, SeqState.init] at hc
  | true =>
    rw [if_neg (c := (!true) = true) (by simp), if_neg (c := (!true) = true) (by simp), asrtM_bind]
    cases rs with
    | true => rfl
    | false =>
      exfalso
      rcases h.out with ⟨-, -, evs, h3, h4, h5⟩ | ⟨h1, h2⟩
      · have hnil := seqRun_nil h3 (List.length_eq_zero_iff.1 (by rw [← h5.next]; exact h0))
        subst hnil
        rcases hse.found hsd with h6 | ⟨v, h6, h7⟩
        · simp at h6
        · have : v ∈ (List.range cl.n).filter p := List.mem_filter.2 ⟨List.mem_range.2 h6, h7⟩
          rw [← h4] at this
          simp at this
      · subst hec
        simp at h2

theorem batchesMainDbg_eq {cfg : Cfg} (hcfg : cfg.Valid) {spi : Spi F} {A : Criterion F} {dist : Nat → Nat → F} {mayRefuse : Prop} {cl : Clustering} (hs : SpiOk spi cl.n A dist mayRefuse) {on : spi.NN}
    {own : Multiset Nat} (ho : hs.isNN on (List.range cl.n) own []) {o : Options F} {P : List Nat} (hall : o.primary = none → P = List.range cl.n)
    (hp : ∀ b, o.primary = some b → P.length = o.lenPrimary ∧ ∀ (i x : Nat), P[i]? = some x → b.get i = some x) (hr : ∀ x ∈ P, x < cl.n)
    (hS : 2 ≤ o.sizeConstraint) (hSn : o.sizeConstraint ≤ cl.n) {bs : Nat} (hbs : 0 < bs) (hlb : ∀ lb, cl.label = some lb → cl.n ≤ lb.buf.len) (hk : cl.numClusters = 0)
    (hinit : cl.isInitialized cfg = true) (hrad : o.seedRadius = .useSupplied → FloatOps.lt FloatOps.zero o.seedSupplied = true)
    {batch out : Blk Nat} {assigned : Blk Bool} (hbl : bs ≤ batch.buf.len) (hol : bs * o.sizeConstraint ≤ out.buf.len) (has : assigned.buf = Buf.fill cl.n false)
    {w : World} {M : Multiset Nat} (hlive : w.live = {assigned.id} + ({out.id} + ({batch.id} + (own + (ptrOwn cl.label + M))))) (hu : w.UncheckedOk) :
    batchesMainDbg cfg spi on cl o.sizeConstraint o.primaryMethod (decide (o.seedRadius = .useSupplied)) o.seedSupplied o.lenPrimary o.primary bs batch out assigned w =
      batchesMain cfg spi on cl o.sizeConstraint o.primaryMethod (decide (o.seedRadius = .useSupplied)) o.seedSupplied o.lenPrimary o.primary bs batch out assigned w := by
  unfold batchesMainDbg batchesMain
  have hlive' : w.live = ptrOwn cl.label + ({assigned.id} + ({out.id} + ({batch.id} + (own + M)))) := by rw [hlive]; abel
  refine mbind_eq rfl (ensureLabels_spec hlive') ?_
  rintro ⟨ok, cl1⟩ w1 ⟨f1, h1⟩
  dsimp only at h1 ⊢
  rcases h1 with ⟨rfl, h1, h2, h3⟩ | ⟨rfl, lb, rfl, h3, h4, h5⟩
  · rfl
  · simp only [Bool.not_true, Bool.false_eq_true, ↓reduceIte]
    have hll : cl.n ≤ lb.buf.len := by
      cases hl : cl.label with
      | none => rw [h5 hl]
      | some lb' => rw [← h4 lb' hl]; exact hlb lb' hl
    refine mbind_eq rfl (initPrimary_spec hall hp hr (hu.congr f1)) ?_
    rintro pr w2 ⟨f2, l2, e2, hmarks⟩
    have hlive2 : w2.live = ptrOwn pr + ({lb.id} + ({assigned.id} + ({out.id} + ({batch.id} + (own + M))))) := by rw [l2, h3]
    rw [has]
    refine mbind_same (runBatchesDbg_eq hcfg (cl := { cl with label := some lb, external := cl.external && cl.label.isSome }) hs ho hmarks hS hSn hbs hbl hol hll ?_ rfl hk (by simpa using hrad) ?_ ?_)
    · unfold Clustering.isInitialized at hinit ⊢
      dsimp only
      rw [hk] at hinit ⊢
      simpa using hinit
    · intro i hi
      rw [hlive2]
      simp only [List.cons_append, List.mem_cons, List.mem_append, ptrIds, List.not_mem_nil, or_false] at hi
      simp only [Multiset.mem_add, Multiset.mem_singleton]
      rcases hi with rfl | rfl | rfl | hi | rfl
      · tauto
      · tauto
      · tauto
      · left
        cases pr with
        | none => simp at hi
        | some b => simpa using hi
      · tauto
    · rw [hlive2]
      refine Multiset.le_iff_exists_add.2 ⟨ptrOwn pr + ({lb.id} + ({assigned.id} + ({out.id} + ({batch.id} + M)))), by abel⟩

theorem clusterBatchesDbg_eq {cfg : Cfg} (hcfg : cfg.Valid) {spi : Spi F} {A : Criterion F} {dist : Nat → Nat → F} {mayRefuse : Prop} {cl : Clustering} (hs : SpiOk spi cl.n A dist mayRefuse)
    {o : Options F} {P : List Nat} {lab c : Nat → Nat} (hv : ValidOptions o cl.n P) (ha : OptionArrays cl.n o P lab c) (hinit : cl.isInitialized cfg = true)
    (hrad : o.seedRadius = .useSupplied → FloatOps.lt FloatOps.zero o.seedSupplied = true) (hfit : BatchFits o cl.n) (hlb : ∀ lb, cl.label = some lb → cl.n ≤ lb.buf.len) (hk : cl.numClusters = 0)
    {w : World} {M : Multiset Nat} (hlive : w.live = ptrOwn cl.label + M) (hu : w.UncheckedOk) :
    clusterBatchesDbg cfg spi cl o.sizeConstraint o.primaryMethod (decide (o.seedRadius = .useSupplied)) o.seedSupplied o.lenPrimary o.primary o.batchSize w =
      clusterBatches cfg spi cl o.sizeConstraint o.primaryMethod (decide (o.seedRadius = .useSupplied)) o.seedSupplied o.lenPrimary o.primary o.batchSize w := by
  have hS := hv.size_two
  have hSn := hv.size_le
  obtain ⟨hb1, hb2⟩ := effBatch_eq hfit hS
  have hbpos : 0 < batchLen o cl.n := by
    unfold batchLen
    split <;> omega
  unfold clusterBatchesDbg clusterBatches
  cases batchArgsError spi cl o.sizeConstraint o.primaryMethod (decide (o.seedRadius = .useSupplied)) o.seedSupplied o.lenPrimary o.primary with
  | some e => rfl
  | none =>
  dsimp only
  refine mbind_eq rfl (hs.nnInit cl.n none (List.range cl.n) w (by simp [ArrHolds]) (by simp) (by omega) List.nodup_range (by simp) (by simp [arrIds])) ?_
  rintro (_ | on) w1 ⟨f1, e1, h1⟩
  · rfl
  dsimp only at h1 ⊢
  obtain ⟨own, ho, hl1⟩ := h1
  rw [hlive] at hl1
  refine mbind_eq rfl wpM_allocE ?_
  rintro b1 w2 ⟨a1, a2, a3⟩
  refine mbind_eq rfl wpM_allocE ?_
  rintro b2 w3 ⟨c1, c2, c3⟩
  refine mbind_eq rfl wpM_allocE ?_
  rintro b3 w4 ⟨d1, d2, d3⟩
  rcases b1 with _ | ⟨i1, b1⟩
  · rfl
  rcases b2 with _ | ⟨i2, b2⟩
  · rfl
  rcases b3 with _ | ⟨i3, b3⟩
  · rfl
  dsimp only
  obtain rfl := a3 _ rfl
  obtain rfl := c3 _ rfl
  obtain rfl := d3 _ rfl
  rw [hb1]
  refine batchesMainDbg_eq hcfg hs ho ha.all ha.primary ha.range hS hSn hbpos hlb hk hinit hrad (M := M) (le_refl _) ?_ rfl ?_ (hu.congr (by rw [d1, c1, a1, f1]))
  · rw [hb1] at hb2
    show batchLen o cl.n * o.sizeConstraint ≤ u32 (o.sizeConstraint * batchLen o cl.n)
    rw [hb2, Nat.mul_comm]
  · rw [d2, c2, a2, hl1]
    simp

end Scc
