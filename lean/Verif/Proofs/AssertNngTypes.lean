/-
Nearest neighbour digraphs with type constraints, with assertions: the same as without.
-/
import Verif.Proofs.AssertNng

set_option linter.unusedSimpArgs false
set_option linter.unusedVariables false

namespace Scc

variable {F : Type} [FloatOps F]

theorem countTypesDbg_eq {n T : Nat} {tcs labels sizes : Buf Nat} {lab c : Nat → Nat} (h : TypeInput n T tcs labels lab c) :
    countTypesDbg n T labels sizes = countTypes n labels sizes := by
  unfold countTypesDbg countTypes
  refine forLt_same (fun _ _ => True) trivial fun i s _ hi _ => ⟨?_, fun _ _ => trivial⟩
  exact get_both (h.labels i hi) (asrt_bind (h.range i hi))

theorem typeCountDbg_eq {cfg : Cfg} {n S T : Nat} {tcs labels : Buf Nat} {lab c : Nat → Nat} (h : TypeInput n T tcs labels lab c) (hn : 1 < n) (hS : 2 ≤ S) (hT : 2 ≤ T)
    (hTm : T ≤ typeLabelMax) (hpm : n ≤ cfg.pointMax) : typeCountDbg cfg n S T tcs labels = typeCount n S T tcs labels := by
  unfold typeCountDbg typeCount
  rw [asrtM_bind hn, asrtM_bind hS, asrtM_bind hT, asrtM_bind hTm]
  simp only [countTypesDbg_eq h, asrtM_bind hpm]
  rfl

theorem unionQueriesDbg_eq {cfg : Cfg} {n lenQ : Nat} {rs : Bool} {primary : Option Arr} {Q Qi : List Nat} {numQ : Nat} {seedable : Option (Blk Nat)} {dgs : List Digraph}
    {rowss : List (Nat → List Nat)} {w : World} (keep : Bool) (h0 : 0 < n) (hz : n < cfg.sizeMax) (hp : PrimaryQ n lenQ primary Q) (h : QueriesAre n rs primary Q numQ seedable Qi)
    (hl : ptrOwn seedable ≤ w.live) (hne : dgs ≠ []) (hd : List.Forall₂ (fun d r => d.Repr cfg r ∧ d.n = n) dgs rowss) (hdl : ∀ d ∈ dgs, ∀ i ∈ d.ids, i ∈ w.live) :
    unionQueriesDbg cfg dgs numQ (queriesOf seedable primary) keep w = unionQueries cfg dgs numQ (queriesOf seedable primary) keep w := by
  have hin := h.input hp hl
  unfold unionQueriesDbg unionQueries
  cases hq : queriesOf seedable primary with
  | none => exact unionAndDeleteDbg_eq keep hne h0 hz hd (by simp) hdl
  | some a =>
    dsimp only
    have hh := hin.holds
    rw [hq] at hh
    have hr : a.buf.read numQ = some Qi := by
      rw [h.num]
      exact Pre.read hh
    have ha : ∀ i ∈ a.ids, i ∈ w.live := fun i hi => hin.live i (by rw [hq]; exact hi)
    rw [useK_bind ha hr, useK_bind ha hr]
    exact unionAndDeleteDbg_eq keep hne h0 hz hd (fun ts hts => by cases hts; exact ⟨hin.sorted, hin.range⟩) hdl

theorem queries_len {n : Nat} {rs : Bool} {primary : Option Arr} {Q Qi : List Nat} {numQ : Nat} {seedable : Option (Blk Nat)} (h : QueriesAre n rs primary Q numQ seedable Qi) (hnumQ : numQ ≤ Q.length) :
    seedOut seedable = .null ∨ numQ ≤ (seedOut seedable).len (queriesOf seedable primary) := by
  cases hsd : seedable with
  | none => left; simp [seedOut]
  | some b =>
    right
    cases hrs : rs with
    | false => have := (h.noRadius hrs).2; rw [hsd] at this; simp at this
    | true =>
      obtain ⟨b', hb', hbl⟩ := h.withRadius hrs
      rw [hsd] at hb'
      cases hb'
      simp [seedOut, OutQ.len, queriesOf]; omega

theorem queries_same {primary : Option Arr} {seedable : Option (Blk Nat)} (hsame : seedOut seedable = .same) : queriesOf seedable primary ≠ none := by
  cases hsd : seedable with
  | none => rw [hsd] at hsame; simp [seedOut] at hsame
  | some b => simp [queriesOf]

theorem primary_len {n lenQ : Nat} {primary : Option Arr} {Q : List Nat} (hp : PrimaryQ n lenQ primary Q) : Q.length ≤ n := by
  have hnd : Q.Nodup := hp.sorted.imp fun h => Nat.ne_of_lt h
  have := (List.subperm_of_subset hnd (l₂ := List.range n) fun q hqm => List.mem_range.2 (hp.range q hqm)).length_le
  simpa using this

theorem typeNngStepDbg_eq {cfg : Cfg} {spi : Spi F} {n : Nat} {A : Criterion F} {dist : Nat → Nat → F} {mayRefuse : Prop} (hs : SpiOk spi n A dist mayRefuse) (hvalid : spi.valid = true)
    {S T lenQ : Nat} {tcs labels : Buf Nat} {lab c : Nat → Nat} (hti : TypeInput n T tcs labels lab c) {tc : TypeCount} (htc : TypeCountOk n T lab c tc)
    {primary : Option Arr} {Q : List Nat} (hp : PrimaryQ n lenQ primary Q) (rs : Bool) (radius : F) (hrad : rs = true → FloatOps.lt FloatOps.zero radius = true)
    (h0 : 0 < n) (hz : n < cfg.sizeMax) (hpm : n ≤ cfg.pointMax) (hsum : sumTo c T ≤ S)
    (hsz : n * S ≤ cfg.sizeMax) {w0 w : World} {M : Multiset Nat} (hM : tc.sizes.id ∈ M ∧ tc.store.id ∈ M ∧ tc.groups.id ∈ M) {i : Nat} (hi : i < T) {st : TypeSt}
    (hinv : TypeInv cfg A n (if rs then some radius else none) rs lab c primary Q w0 M (List.range i) st w) :
    typeNngStepDbg cfg spi n tcs tc primary rs radius st i w = typeNngStep cfg spi n tcs tc primary rs radius st i w := by
  obtain ⟨a1, a2, Qi, rowss, a3, a4, a5, a6⟩ := hinv
  have hML : ∀ j, j ∈ M → j ∈ w.live := fun j hj => by rw [a2]; exact Multiset.mem_add.2 (Or.inr hj)
  unfold typeNngStepDbg typeNngStep
  rw [useK_bind (by simp) (hti.tcs i hi), useK_bind (by simp) (hti.tcs i hi)]
  by_cases hc : 0 < c i
  · rw [if_pos hc, if_pos hc]
    have hgp : groupPos tc i = some ((typeGroup n lab i).length, off (typeGroup n lab) i) := by
      unfold groupPos
      rw [htc.sizes i hi, htc.groups i hi]; rfl
    have hgl : ∀ j ∈ [tc.sizes.id, tc.groups.id], j ∈ w.live := by intro j hj; simp at hj; rcases hj with rfl | rfl; exacts [hML _ hM.1, hML _ hM.2.2]
    rw [useK_bind hgl hgp, useK_bind hgl hgp]
    dsimp only
    have hsl : ptrOwn st.seedable ≤ w.live := by
      rw [a2, show dgsOwn st.dgs + ptrOwn st.seedable + M = ptrOwn st.seedable + (dgsOwn st.dgs + M) by abel]
      exact Multiset.le_add_right _ _
    have hin := a3.input hp hsl
    have hci : c i ≤ S := by
      have h1 := sumTo_mono (c := c) (show i + 1 ≤ T by omega)
      rw [sumTo_succ] at h1; omega
    have hnumQ : st.numQ ≤ Q.length := by rw [a3.num]; exact a3.sub.length_le
    have hmul : st.numQ * c i ≤ n * S := Nat.mul_le_mul (hnumQ.trans (primary_len hp)) hci
    have hsid : ∀ j ∈ arrIds (some ⟨[tc.store.id], tc.store.buf.drop (off (typeGroup n lab) i)⟩), j ∈ w.live := by
      intro j hj; simp [arrIds] at hj; subst hj; exact hML _ hM.2.1
    refine mbind_eq (makeNngDbg_eq (cfg := cfg) (search := some ⟨[tc.store.id], tc.store.buf.drop (off (typeGroup n lab) i)⟩) (L := typeGroup n lab i) (k := c i)
      (outQ := seedOut st.seedable) hs hvalid rs radius h0 hz hrad hpm (htc.store i hi) nodup_typeGroup (fun x hx => (mem_typeGroup.1 hx).1)
      hsid hin hc (htc.enough i hi) (hmul.trans hsz) (queries_len a3 hnumQ) queries_same)
      (makeNng_spec (cfg := cfg) (search := some ⟨[tc.store.id], tc.store.buf.drop (off (typeGroup n lab) i)⟩) (L := typeGroup n lab i) (k := c i)
      (outQ := seedOut st.seedable) hs rs radius hpm (htc.store i hi) nodup_typeGroup (fun x hx => (mem_typeGroup.1 hx).1)
      hsid hin hc (htc.enough i hi) (hmul.trans hsz) (queries_len a3 hnumQ) queries_same) ?_
    rintro (e | out) w1 hh
    · rfl
    obtain ⟨ans, hpost⟩ := hh
    dsimp only
    have hids := mem_own_left hpost.live
    rw [digraphIsEmptyDbg_eq hpost.repr, useK_bind hids (digraphIsEmpty_spec hpost.repr), useK_bind hids (digraphIsEmpty_spec hpost.repr)]
    by_cases he : off (ansRows ans) out.nng.n = 0
    · rw [decide_eq_true he, if_pos rfl, if_pos rfl]
    rw [decide_eq_false he, if_neg Bool.false_ne_true, if_neg Bool.false_ne_true]
    exact mbind_same (selfMatchDbg_eq hpost.repr he (Nat.lt_of_lt_of_le hc (htc.enough i hi)) (by simp) hids)
  · rw [if_neg hc, if_neg hc]

theorem addGeneralDbg_eq {cfg : Cfg} {spi : Spi F} {n : Nat} {A : Criterion F} {dist : Nat → Nat → F} {mayRefuse : Prop} (hs : SpiOk spi n A dist mayRefuse) (hvalid : spi.valid = true)
    {S lenQ sum : Nat} {primary : Option Arr} {Q : List Nat} (hp : PrimaryQ n lenQ primary Q) (rs : Bool) (radius : F) (hrad : rs = true → FloatOps.lt FloatOps.zero radius = true)
    (h0 : 0 < n) (hz : n < cfg.sizeMax) (hpm : n ≤ cfg.pointMax)
    (hS : 2 ≤ S) (hSn : S ≤ n) (hsz : n * S ≤ cfg.sizeMax) {w : World} {M : Multiset Nat} {numQ : Nat} {seedable : Option (Blk Nat)} {Qi : List Nat}
    (hq : QueriesAre n rs primary Q numQ seedable Qi) {d : Digraph} {rows : Nat → List Nat} (hd : d.Repr cfg rows) (hdn : d.n = n) (hlive : w.live = d.own + ptrOwn seedable + M) :
    addGeneralDbg cfg spi n S sum primary rs radius numQ seedable d w = addGeneral cfg spi n S sum primary rs radius numQ seedable d w := by
  have hnumQ : numQ ≤ Q.length := by rw [hq.num]; exact hq.sub.length_le
  have hmul : numQ * S ≤ n * S := Nat.mul_le_mul_right S (hnumQ.trans (primary_len hp))
  unfold addGeneralDbg addGeneral
  by_cases hlt : sum < S
  · rw [if_pos hlt, if_pos hlt]
    have hsl : ptrOwn seedable ≤ w.live := by
      rw [hlive, show d.own + ptrOwn seedable + M = ptrOwn seedable + (d.own + M) by abel]
      exact Multiset.le_add_right _ _
    have hin := hq.input hp hsl
    have hmk := makeNng_spec (cfg := cfg) (search := none) (L := List.range n) (k := S) (outQ := seedOut seedable) hs rs radius hpm (arrHolds_range n) List.nodup_range
      (fun x hx => List.mem_range.1 hx) (by simp [arrIds]) hin (by omega) (by simpa using hSn) (hmul.trans hsz) (queries_len hq hnumQ) queries_same
    have hme := makeNngDbg_eq (cfg := cfg) (search := none) (L := List.range n) (k := S) (outQ := seedOut seedable) hs hvalid rs radius h0 hz hrad hpm (arrHolds_range n) List.nodup_range
      (fun x hx => List.mem_range.1 hx) (by simp [arrIds]) hin (by omega) (by simpa using hSn) (hmul.trans hsz) (queries_len hq hnumQ) queries_same
    rw [List.length_range] at hmk hme
    refine mbind_eq hme hmk ?_
    rintro (e | out) w1 hh
    · rfl
    obtain ⟨ans, hpost⟩ := hh
    dsimp only
    have hids := mem_own_left hpost.live
    have hlive1 : w1.live = out.nng.own + (d.own + ptrOwn seedable + M) := by rw [hpost.live, hlive]
    have hdl : ∀ j ∈ d.ids, j ∈ d.own + ptrOwn seedable + M := fun j hj => Multiset.mem_add.2 (Or.inl (Multiset.mem_add.2 (Or.inl (mem_ids_iff_own.1 hj))))
    have hex : extraArcsDbg cfg out.nng d (S - sum) w1 = extraArcs cfg out.nng d (S - sum) w1 := by
      unfold extraArcsDbg extraArcs
      rw [digraphIsEmptyDbg_eq hpost.repr, useK_bind hids (digraphIsEmpty_spec hpost.repr), useK_bind hids (digraphIsEmpty_spec hpost.repr)]
      by_cases he : off (ansRows ans) out.nng.n = 0
      · rw [decide_eq_true he, if_pos rfl, if_pos rfl]
      · rw [decide_eq_false he, if_neg Bool.false_ne_true, if_neg Bool.false_ne_true]
        exact digraphDifferenceDbg_eq hpost.repr hd (by rw [hdn, hpost.n_eq]) (by rw [hpost.n_eq]; exact h0) (by omega) hids
          (fun j hj => by rw [hlive1]; exact Multiset.mem_add.2 (Or.inr (hdl j hj)))
    have hexs : WpM (extraArcs cfg out.nng d (S - sum)) w1 fun r w2 => r.1 = .ok → off (ansRows ans) n ≠ 0 ∧ w2.live = r.2.own + (d.own + ptrOwn seedable + M) ∧ r.2.n = n ∧ ∃ rm, r.2.Repr cfg rm := by
      unfold extraArcs
      rw [wpM_bind, wpM_useK]
      refine ⟨hids, ?_⟩
      rw [wp_eq (digraphIsEmpty_spec hpost.repr), hpost.n_eq]
      by_cases he : off (ansRows ans) n = 0
      · rw [decide_eq_true he, if_pos rfl, wpM_bind]
        refine wpM_mkErr fun w2 l1 l2 l3 => ?_
        rw [wpM_pure]
        intro h; cases h
      · rw [decide_eq_false he, if_neg Bool.false_ne_true]
        refine (digraphDifference_spec (L := d.own + ptrOwn seedable + M) (mx := S - sum) hpost.repr hd (by rw [hdn, hpost.n_eq]) hlive1 hdl).mono ?_
        rintro ⟨ec, m⟩ w2 hm hok
        dsimp only at hok ⊢
        rcases hm.cause with ⟨b1, b2, b3⟩ | ⟨b1, b2, b3, b4⟩
        · exact ⟨he, hm.live, hm.n_eq.trans hpost.n_eq, _, b2⟩
        · dsimp only at b1
          rw [b1] at hok; cases hok
    refine mbind_eq hex hexs ?_
    rintro ⟨ec, m⟩ w2 hm
    dsimp only at hm ⊢
    by_cases hok : ec = .ok
    · obtain ⟨he, hlive2, hmn, rm, hrm⟩ := hm hok
      rw [if_neg (not_not.2 hok), if_neg (not_not.2 hok)]
      have hq' := hq.next (F := F) hp (by omega) hpost he
      have hptr : ptrOwn (ptrSet seedable out.outQ) = ptrOwn seedable := ptrOwn_ptrSet
      refine mbind_same (unionQueriesDbg_eq (cfg := cfg) (dgs := [d, m]) false h0 hz hp hq' ?_ (by simp)
        (List.Forall₂.cons ⟨hd, hdn⟩ (List.Forall₂.cons ⟨hrm, hmn⟩ List.Forall₂.nil)) ?_)
      · rw [hptr, hlive2, show m.own + (d.own + ptrOwn seedable + M) = ptrOwn seedable + (m.own + d.own + M) by abel]
        exact Multiset.le_add_right _ _
      · intro g hg j hj
        rw [hlive2]
        simp only [List.mem_cons, List.not_mem_nil, or_false] at hg
        rcases hg with rfl | rfl
        · exact Multiset.mem_add.2 (Or.inr (hdl j hj))
        · exact Multiset.mem_add.2 (Or.inl (mem_ids_iff_own.1 hj))
    · rw [if_pos hok, if_pos hok]
  · rw [if_neg hlt, if_neg hlt]

theorem combineTypesDbg_eq {cfg : Cfg} {spi : Spi F} {n : Nat} {A : Criterion F} {dist : Nat → Nat → F} {mayRefuse : Prop} (hs : SpiOk spi n A dist mayRefuse) (hvalid : spi.valid = true)
    {S T lenQ : Nat} {lab c : Nat → Nat} {primary : Option Arr} {Q : List Nat} (hp : PrimaryQ n lenQ primary Q) (rs : Bool) (radius : F)
    (hrad : rs = true → FloatOps.lt FloatOps.zero radius = true) (h0 : 0 < n) (hz : n < cfg.sizeMax) (hpm : n ≤ cfg.pointMax)
    (hsum : sumTo c T ≤ S) (hpos : ∃ t < T, 0 < c t) (hS : 2 ≤ S) (hSn : S ≤ n) (hsz : n * S ≤ cfg.sizeMax) {w0 w : World} {M : Multiset Nat} {arrId : Nat}
    {r : Ctl TypeSt (ErrorCode × TypeSt)}
    (hr : TypeLoopRes cfg A n S (if rs then some radius else none) rs lab c T primary Q mayRefuse w0 ({arrId} + M) r w) :
    combineTypesDbg cfg spi n S (sumTo c T) arrId primary rs radius r w = combineTypes cfg spi n S (sumTo c T) arrId primary rs radius r w := by
  unfold combineTypesDbg combineTypes
  rcases r with st | ⟨ec, st⟩
  · replace hr : TypeInv _ _ _ _ _ _ _ _ _ _ _ _ _ _ := hr
    dsimp only
    obtain ⟨a1, a2, Qi, rowss, a3, a4, a5, a6⟩ := hr
    have harr : ∀ j ∈ [arrId], j ∈ w.live := by intro j hj; simp at hj; subst hj; rw [a2]; simp
    rw [touch_bind harr, touch_bind harr]
    have hU : ∀ v ∈ Qi, TypeSet A n S (if rs then some radius else none) lab c T (sumTo c T) v (rowss.flatMap fun r => r v) := by
      intro v hv
      obtain ⟨b1, b2, b3, b4, b5⟩ := typeSet_of_rows (v := v) (S := S) (T := T) (List.nodup_range.sublist List.filter_sublist) (fun t ht => List.mem_range.1 (List.mem_filter.1 ht).1) (a5.imp fun t r h => h v hv)
      refine ⟨b1, by rw [b2, sum_filter_pos, sumTo_eq_sum], fun x hx => (b3 x hx).1, fun t ht => ?_, b5⟩
      by_cases hc : 0 < c t
      · exact b4 t (List.mem_filter.2 ⟨List.mem_range.2 ht, by simpa using hc⟩)
      · omega
    have hne : st.dgs ≠ [] := by
      obtain ⟨t, ht, hc⟩ := hpos
      intro h0
      rw [h0] at a4
      cases a4
      have hm : t ∈ (List.range T).filter fun t => 0 < c t := List.mem_filter.2 ⟨List.mem_range.2 ht, by simpa using hc⟩
      generalize (List.range T).filter (fun t => decide (0 < c t)) = l at a5 hm
      cases a5
      simp at hm
    have hsl : ptrOwn st.seedable ≤ w.live := by
      rw [a2, show dgsOwn st.dgs + ptrOwn st.seedable + ({arrId} + M) = ptrOwn st.seedable + (dgsOwn st.dgs + ({arrId} + M)) by abel]
      exact Multiset.le_add_right _ _
    have hdl : ∀ d ∈ st.dgs, ∀ i ∈ d.ids, i ∈ w.live := by
      intro d hd i hi
      rw [a2]
      exact Multiset.mem_add.2 (Or.inl (Multiset.mem_add.2 (Or.inl (mem_ids_dgsOwn hd hi))))
    refine mbind_eq (unionQueriesDbg_eq (cfg := cfg) (decide (sumTo c T < S)) h0 hz hp a3 hsl hne a4 hdl)
      (unionQueries_spec (cfg := cfg) (k := S) (decide (sumTo c T < S)) hp a3 hsl hne a4 hdl (fun v hv => by rw [(hU v hv).len]; exact hsum) hsz) ?_
    rintro (e | d) w1 hu
    · rfl
    obtain ⟨u1, u2, u3, u4⟩ := hu
    have hf : WpM (freeDigraphs st.dgs) w1 fun _ w2 => w2.live = d.own + ptrOwn st.seedable + ({arrId} + M) :=
      freeDigraphs_spec (d.own + ptrOwn st.seedable + ({arrId} + M)) (by rw [u2, a2]; abel) fun w2 k1 k2 k3 => k2
    refine mbind_eq rfl hf ?_
    rintro ⟨⟩ w2 k2
    have hg : WpM (freeId arrId) w2 fun _ w3 => w3.live = d.own + ptrOwn st.seedable + M :=
      wpM_freeId (d.own + ptrOwn st.seedable + M) (by rw [k2]; abel) fun w3 l1 l2 l3 => l2
    refine mbind_eq rfl hg ?_
    rintro ⟨⟩ w3 l2
    exact addGeneralDbg_eq (M := M) hs hvalid hp rs radius hrad h0 hz hpm hS hSn hsz a3 u4 u3 l2
  · rfl

theorem nngTypeArcsDbg_eq {cfg : Cfg} {spi : Spi F} {n : Nat} {A : Criterion F} {dist : Nat → Nat → F} {mayRefuse : Prop} (hs : SpiOk spi n A dist mayRefuse) (hvalid : spi.valid = true)
    {w : World} {S T lenPrimary : Nat} {tcs labels : Buf Nat} {lab c : Nat → Nat} (hti : TypeInput n T tcs labels lab c) {primary : Option Arr} {Q : List Nat}
    (hp : PrimaryQ n (if primary.isNone then n else lenPrimary) primary Q) (rs : Bool) (radius : F) (hrad : rs = true → FloatOps.lt FloatOps.zero radius = true) (hpm : n ≤ cfg.pointMax)
    (hT : 2 ≤ T) (hTm : T ≤ typeLabelMax)
    (hsum : sumTo c T < 2 ^ 32) (hpos : ∃ t < T, 0 < c t) (hS : 2 ≤ S) (hSn : S ≤ n) (hsz : n * S ≤ cfg.sizeMax) :
    nngTypeArcsDbg cfg spi n S T tcs labels lenPrimary primary rs radius w = nngTypeArcs cfg spi n S T tcs labels lenPrimary primary rs radius w := by
  have hz : n < cfg.sizeMax := by
    have := Nat.mul_le_mul_left n hS
    omega
  have h0 : 0 < n := by omega
  unfold nngTypeArcsDbg nngTypeArcs
  rw [asrtM_bind hvalid, asrtM_bind hs.numPoints, asrtM_bind (show 2 ≤ n by omega), asrtM_bind hSn, asrtM_bind hS, asrtM_bind hT, asrtM_bind hTm, asrtRadius_bind hrad]
  refine mbind_eq rfl (initSeedable_spec hp rs) ?_
  rintro (e | seedable) w1 h1
  · rfl
  obtain ⟨a1, a2, a3⟩ := h1
  dsimp only
  refine mbind_eq rfl wpM_allocE ?_
  rintro (_ | arr) w2 ⟨k1, k2, k3⟩
  · rfl
  dsimp only
  rw [typeCountDbg_eq hti (by omega) hS hT hTm hpm]
  refine mbind_eq rfl (typeCount_spec hti hsum (by omega)) ?_
  rintro (e | tc) w3 h3
  · rfl
  obtain ⟨t1, t2, t3, t4, t5⟩ := h3
  dsimp only
  have hM : ∀ j, j = tc.sizes.id ∨ j = tc.store.id ∨ j = tc.groups.id → j ∈ ({tc.sizes.id} + {tc.store.id} + {tc.groups.id} + ({arr.id} + w.live) : Multiset Nat) := by
    rintro j (rfl | rfl | rfl) <;> simp
  have hinit : TypeInv cfg A n (if rs then some radius else none) rs lab c primary Q w ({tc.sizes.id} + {tc.store.id} + {tc.groups.id} + ({arr.id} + w.live)) []
      ⟨[], if primary.isNone then n else lenPrimary, seedable⟩ w3 := by
    refine ⟨by rw [t1, k1, a1], by rw [t2, k2, a2]; simp only [dgsOwn, List.map_nil, List.sum_nil, ptrOwn]; abel, Q, [], a3, List.Forall₂.nil, List.Forall₂.nil, fun q hq hq2 => absurd hq hq2⟩
  have hstep : ∀ pre i post st w4, List.range T = pre ++ i :: post →
      TypeInv cfg A n (if rs then some radius else none) rs lab c primary Q w ({tc.sizes.id} + {tc.store.id} + {tc.groups.id} + ({arr.id} + w.live)) pre st w4 →
      typeNngStepDbg cfg spi n tcs tc primary rs radius st i w4 = typeNngStep cfg spi n tcs tc primary rs radius st i w4 ∧
      WpM (typeNngStep cfg spi n tcs tc primary rs radius st i) w4 fun ct w' => match ct with
        | .next st' => TypeInv cfg A n (if rs then some radius else none) rs lab c primary Q w ({tc.sizes.id} + {tc.store.id} + {tc.groups.id} + ({arr.id} + w.live)) (pre ++ [i]) st' w'
        | .stop p => TypeStop (TypeCause A w n S (if rs then some radius else none) lab c T Q (cfg.arcMax < n * S) mayRefuse) w
            ({tc.sizes.id} + {tc.store.id} + {tc.groups.id} + ({arr.id} + w.live)) p w' := by
    intro pre i post st w4 hpre hinv
    obtain ⟨rfl, hi⟩ := range_split hpre
    refine ⟨typeNngStepDbg_eq hs hvalid hti t5 hp rs radius hrad h0 hz hpm t4 hsz ⟨hM _ (Or.inl rfl), hM _ (Or.inr (Or.inl rfl)), hM _ (Or.inr (Or.inr rfl))⟩ hi hinv, ?_⟩
    refine (typeNngStep_spec hs hti t5 hp rs radius hpm t4 hsz ⟨hM _ (Or.inl rfl), hM _ (Or.inr (Or.inl rfl)), hM _ (Or.inr (Or.inr rfl))⟩ hi hinv).mono ?_
    rintro (st' | p) w5 hh
    · rw [← List.range_succ]; exact hh
    · exact hh
  refine mbind_eq (foldBM_eq _ _ hinit fun pre i post st w4 h1 h2 => ⟨(hstep pre i post st w4 h1 h2).1, (hstep pre i post st w4 h1 h2).2.mono ?_⟩)
    (wpM_foldBM (TypeInv cfg A n (if rs then some radius else none) rs lab c primary Q w ({tc.sizes.id} + {tc.store.id} + {tc.groups.id} + ({arr.id} + w.live)))
      (TypeStop (TypeCause A w n S (if rs then some radius else none) lab c T Q (cfg.arcMax < n * S) mayRefuse) w ({tc.sizes.id} + {tc.store.id} + {tc.groups.id} + ({arr.id} + w.live)))
      _ _ _ hinit fun pre i post st w4 h1 h2 => (hstep pre i post st w4 h1 h2).2.mono fun ct w5 hh => by rcases ct with st' | p <;> exact hh) ?_
  · rintro (st' | p) w5 hh
    · exact hh
    · trivial
  intro r w4 hr
  have hex : ∃ X : Multiset Nat, w4.live = X + ({tc.sizes.id} + {tc.store.id} + {tc.groups.id} + ({arr.id} + w.live)) ∧ ∀ w5 : World, w5.fails = w4.fails →
      w5.live = X + ({arr.id} + w.live) → w5.err = w4.err →
      TypeLoopRes cfg A n S (if rs then some radius else none) rs lab c T primary Q mayRefuse w ({arr.id} + w.live) r w5 := by
    rcases r with st | p
    · exact ⟨dgsOwn st.dgs + ptrOwn st.seedable, hr.live, fun w5 b1 b2 b3 => ⟨b1.trans hr.fails, b2, hr.rows⟩⟩
    · exact ⟨dgsOwn p.2.dgs + ptrOwn p.2.seedable, hr.live, fun w5 b1 b2 b3 => ⟨b1.trans hr.fails, b2, by rw [b3]; exact hr.err, hr.cause⟩⟩
  obtain ⟨X, hX, hnext⟩ := hex
  have f1 : WpM (freeId tc.sizes.id) w4 fun _ w5 => w5.fails = w4.fails ∧ w5.live = X + {tc.store.id} + {tc.groups.id} + ({arr.id} + w.live) ∧ w5.err = w4.err :=
    wpM_freeId _ (by rw [hX]; abel) fun w5 l1 l2 l3 => ⟨l1, l2, l3⟩
  refine mbind_eq rfl f1 ?_
  rintro ⟨⟩ w5 ⟨l1, l2, l3⟩
  have f2 : WpM (freeId tc.store.id) w5 fun _ w6 => w6.fails = w5.fails ∧ w6.live = X + {tc.groups.id} + ({arr.id} + w.live) ∧ w6.err = w5.err :=
    wpM_freeId _ (by rw [l2]; abel) fun w5 l1 l2 l3 => ⟨l1, l2, l3⟩
  refine mbind_eq rfl f2 ?_
  rintro ⟨⟩ w6 ⟨m1, m2, m3⟩
  have f3 : WpM (freeId tc.groups.id) w6 fun _ w7 => w7.fails = w6.fails ∧ w7.live = X + ({arr.id} + w.live) ∧ w7.err = w6.err :=
    wpM_freeId _ (by rw [m2]; abel) fun w5 l1 l2 l3 => ⟨l1, l2, l3⟩
  refine mbind_eq rfl f3 ?_
  rintro ⟨⟩ w7 ⟨n1, n2, n3⟩
  rw [t5.sum]
  exact combineTypesDbg_eq hs hvalid hp rs radius hrad h0 hz hpm t4 hpos hS hSn hsz (hnext w7 (by rw [n1, m1, l1]) n2 (by rw [n3, m3, l3]))

end Scc
