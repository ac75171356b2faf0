/-
The nearest neighbour digraph for type constraints.
-/
import Verif.Proofs.TypeCount

set_option linter.unusedSimpArgs false
set_option linter.unusedVariables false

namespace Scc

variable {F : Type}

/-- The arcs of `v` for one type constraint. -/
structure TypeRow (A : Criterion F) (n : Nat) (R : Option F) (lab : Nat → Nat) (k t v : Nat) (l : List Nat) : Prop where
  len : l.length = k
  nodup : l.Nodup
  mem : ∀ x ∈ l, x < n ∧ lab x = t
  from_answer : ∀ x ∈ l, x ≠ v → ∃ a, x ∈ a ∧ A (typeGroup n lab t) k R v (some a) ∧ a.length = k
  takes : ∃ a, (A (typeGroup n lab t) k R v (some a) ∧ a.length = k) ∧ l = if v ∈ typeGroup n lab t then selfRow v a else a

theorem selfRow_type {A : Criterion F} {n : Nat} {R : Option F} {lab : Nat → Nat} {Q : List Nat} {k t v : Nat} {ans : Nat → Option (List Nat)} (h : Answers A (typeGroup n lab t) k R Q ans)
    (hv : v ∈ okOf ans Q) : TypeRow A n R lab k t v (selfRows (typeGroup n lab t) (ansRows ans) v) := by
  have hG : ∀ x ∈ typeGroup n lab t, x < n ∧ lab x = t := fun x hx => mem_typeGroup.1 hx
  obtain ⟨hvQ, hvs⟩ := List.mem_filter.1 hv
  obtain ⟨l, hl⟩ := Option.isSome_iff_exists.1 hvs
  obtain ⟨h1, h2, h3⟩ := h.row v l hl
  have hr : ansRows ans v = l := by simp [ansRows, hl]
  have hc := h.crit v hvQ
  rw [hl] at hc
  unfold selfRows
  rw [hr]
  have htake : ∃ a, (A (typeGroup n lab t) k R v (some a) ∧ a.length = k) ∧ (if v ∈ typeGroup n lab t then selfRow v l else l) = if v ∈ typeGroup n lab t then selfRow v a else a :=
    ⟨l, ⟨hc, h1⟩, rfl⟩
  by_cases hvG : v ∈ typeGroup n lab t
  · rw [if_pos hvG] at htake ⊢
    by_cases hin : v ∈ l ∨ l = []
    · rw [show selfRow v l = l by unfold selfRow; rw [if_pos hin]] at htake ⊢
      exact ⟨h1, h2, fun x hx => hG x (h3 hx), fun x hx _ => ⟨l, hx, hc, h1⟩, htake⟩
    · have hn := hin
      push Not at hn
      rw [show selfRow v l = l.dropLast ++ [v] by unfold selfRow; rw [if_neg hin]] at htake ⊢
      refine ⟨?_, ?_, ?_, ?_, htake⟩
      · have := List.length_pos_iff.2 hn.2
        simp; omega
      · rw [List.nodup_append]
        refine ⟨h2.sublist (List.dropLast_sublist l), List.nodup_singleton _, fun a ha b hb hab => ?_⟩
        simp at hb
        subst hb hab
        exact hn.1 ((List.dropLast_subset _) ha)
      · intro x hx
        rcases List.mem_append.1 hx with hx | hx
        · exact hG x (h3 ((List.dropLast_subset _) hx))
        · simp at hx; subst hx; exact hG x hvG
      · intro x hx hxv
        rcases List.mem_append.1 hx with hx | hx
        · exact ⟨l, (List.dropLast_subset _) hx, hc, h1⟩
        · simp at hx; exact absurd hx hxv
  · rw [if_neg hvG] at htake ⊢
    exact ⟨h1, h2, fun x hx => hG x (h3 hx), fun x hx _ => ⟨l, hx, hc, h1⟩, htake⟩

theorem typeSet_of_rows {A : Criterion F} {n : Nat} {R : Option F} {lab c : Nat → Nat} {v S T : Nat} {ts : List Nat} {rowss : List (Nat → List Nat)} (hts : ts.Nodup) (hT : ∀ t ∈ ts, t < T)
    (h : List.Forall₂ (fun t r => TypeRow A n R lab (c t) t v (r v)) ts rowss) :
    (rowss.flatMap fun r => r v).Nodup ∧ (rowss.flatMap fun r => r v).length = (ts.map c).sum ∧ (∀ x ∈ rowss.flatMap fun r => r v, x < n ∧ lab x ∈ ts) ∧
      (∀ t ∈ ts, c t ≤ (rowss.flatMap fun r => r v).countP fun x => lab x = t) ∧ ∀ x ∈ rowss.flatMap fun r => r v, x ≠ v → FromAnswer A n S R lab c T v x := by
  induction h with
  | nil => simp
  | @cons t r ts rowss h1 h2 ih =>
    obtain ⟨i1, i2, i3, i4, i5⟩ := ih (List.nodup_cons.1 hts).2 fun t ht => hT t (List.mem_cons_of_mem _ ht)
    rw [List.flatMap_cons]
    refine ⟨?_, ?_, ?_, ?_, ?_⟩
    · rw [List.nodup_append]
      refine ⟨h1.nodup, i1, fun a ha b hb hab => ?_⟩
      subst hab
      exact (List.nodup_cons.1 hts).1 ((h1.mem a ha).2 ▸ (i3 a hb).2)
    · rw [List.length_append, i2, h1.len]; simp
    · intro x hx
      rcases List.mem_append.1 hx with hx | hx
      · exact ⟨(h1.mem x hx).1, by rw [(h1.mem x hx).2]; simp⟩
      · exact ⟨(i3 x hx).1, List.mem_cons_of_mem _ (i3 x hx).2⟩
    · intro s hs
      rw [List.countP_append]
      rcases List.mem_cons.1 hs with rfl | hs
      · have : (r v).countP (fun x => decide (lab x = s)) = (r v).length := List.countP_eq_length.2 fun x hx => by simpa using (h1.mem x hx).2
        rw [this, h1.len]; omega
      · have := i4 s hs; omega
    · intro x hx
      rcases List.mem_append.1 hx with hx | hx
      · intro hxv
        obtain ⟨a, ha1, ha2, ha3⟩ := h1.from_answer x hx hxv
        exact ⟨a, ha1, Or.inr ⟨t, hT t (by simp), ha2, ha3⟩⟩
      · exact i5 x hx

theorem takes_of_rows {A : Criterion F} {n : Nat} {R : Option F} {lab c : Nat → Nat} {v : Nat} (hv : v < n) {ts : List Nat} {rowss : List (Nat → List Nat)} (hts : ts.Nodup)
    (h : List.Forall₂ (fun t r => TypeRow A n R lab (c t) t v (r v)) ts rowss) :
    ∃ a : Nat → List Nat, (∀ t ∈ ts, A (typeGroup n lab t) (c t) R v (some (a t)) ∧ (a t).length = c t) ∧
      (rowss.flatMap fun r => r v) = ts.flatMap fun t => if lab v = t then selfRow v (a t) else a t := by
  induction h with
  | nil => exact ⟨fun _ => [], by simp, rfl⟩
  | @cons t r ts rowss h1 h2 ih =>
    obtain ⟨htn, hts'⟩ := List.nodup_cons.1 hts
    obtain ⟨a, i1, i2⟩ := ih hts'
    obtain ⟨b, hb, hr⟩ := h1.takes
    have hne : ∀ s ∈ ts, s ≠ t := fun s hs he => htn (he ▸ hs)
    refine ⟨fun s => if s = t then b else a s, fun s hs => ?_, ?_⟩
    · rcases List.mem_cons.1 hs with rfl | hs
      · simpa using hb
      · simpa [hne s hs] using i1 s hs
    · rw [List.flatMap_cons, List.flatMap_cons, i2, hr]
      congr 1
      · have : v ∈ typeGroup n lab t ↔ lab v = t := by rw [mem_typeGroup]; exact and_iff_right hv
        simp [this]
      · exact List.flatMap_congr fun s hs => by simp [hne s hs]

theorem sum_filter_pos (c : Nat → Nat) (l : List Nat) : ((l.filter fun t => 0 < c t).map c).sum = (l.map c).sum := by
  induction l with
  | nil => rfl
  | cons a l ih =>
    by_cases h : 0 < c a
    · simp [h, ih]
    · have : c a = 0 := by omega
      simp [h, ih, this]

theorem off_le_mul {r : Nat → List Nat} {n k : Nat} (h : ∀ v, v < n → (r v).length ≤ k) : off r n ≤ n * k := by
  induction n with
  | zero => simp [off]
  | succ n ih =>
    have h1 := ih fun v hv => h v (by omega)
    have h2 := h n (by omega)
    show off r n + (r n).length ≤ _
    rw [Nat.succ_mul]; omega

/-- Blocks of a list of digraphs. -/
def dgsOwn (dgs : List Digraph) : Multiset Nat := (dgs.map Digraph.own).sum

theorem freeDigraphs_spec {dgs : List Digraph} {w : World} {Q : Unit → World → Prop} (L : Multiset Nat) (hl : w.live = dgsOwn dgs + L)
    (hq : ∀ w', w'.fails = w.fails → w'.live = L → w'.err = w.err → Q () w') : WpM (freeDigraphs dgs) w Q := by
  induction dgs generalizing w with
  | nil =>
    unfold freeDigraphs
    rw [List.foldlM_nil, wpM_pure]
    exact hq w rfl (by simpa [dgsOwn] using hl) rfl
  | cons d dgs ih =>
    unfold freeDigraphs
    rw [List.foldlM_cons, wpM_bind, wpM_bind]
    refine freeDigraph_spec (dgsOwn dgs + L) (by rw [hl]; simp [dgsOwn, add_assoc]) fun w1 k1 k2 k3 => ?_
    rw [wpM_pure]
    exact ih k2 fun w' l1 l2 l3 => hq w' (l1.trans k1) l2 (l3.trans k3)

/-- The queries that are left: `Qi`, given by `seedable` or by the primary points. -/
structure QueriesAre (n : Nat) (rs : Bool) (primary : Option Arr) (Q : List Nat) (numQ : Nat) (seedable : Option (Blk Nat)) (Qi : List Nat) : Prop where
  holds : ArrHolds (queriesOf seedable primary) Qi
  num : numQ = Qi.length
  sub : Qi.Sublist Q
  ne : Qi ≠ []
  noRadius : rs = false → Qi = Q ∧ seedable = none
  withRadius : rs = true → ∃ b, seedable = some b ∧ b.buf.len = Q.length

/-- Facts about the primary points as queries. -/
structure PrimaryQ (n lenQ : Nat) (primary : Option Arr) (Q : List Nat) : Prop where
  holds : ArrHolds primary Q
  len : Q.length = lenQ
  sorted : Q.Pairwise (· < ·)
  range : ∀ q ∈ Q, q < n
  pos : 0 < lenQ
  ids : arrIds primary = []
  all : primary = none → lenQ = n

theorem QueriesAre.input {n lenQ : Nat} {rs : Bool} {primary : Option Arr} {Q Qi : List Nat} {numQ : Nat} {seedable : Option (Blk Nat)} (hp : PrimaryQ n lenQ primary Q)
    (h : QueriesAre n rs primary Q numQ seedable Qi) {w : World} (hl : ptrOwn seedable ≤ w.live) : QueryInput w n numQ (queriesOf seedable primary) Qi := by
  refine ⟨h.holds, h.num.symm, hp.sorted.sublist h.sub, fun q hq => hp.range q (h.sub.subset hq), by rw [h.num]; exact List.length_pos_iff.2 h.ne, ?_, ?_⟩
  · intro i hi
    cases seedable with
    | none => simp [queriesOf, hp.ids] at hi
    | some b =>
      simp [queriesOf, arrIds] at hi
      subst hi
      exact Multiset.mem_of_le hl (by simp)
  · intro hn
    cases seedable with
    | none =>
      cases rs with
      | true => obtain ⟨b, hb, -⟩ := h.withRadius rfl; simp at hb
      | false => rw [h.num, (h.noRadius rfl).1, hp.len]; exact hp.all hn
    | some b => simp [queriesOf] at hn

theorem QueriesAre.next {n lenQ : Nat} {rs : Bool} {primary : Option Arr} {Q Qi : List Nat} {numQ k : Nat} {seedable : Option (Blk Nat)} [FloatOps F] {cfg : Cfg} {A : Criterion F}
    {w w' : World} {L : List Nat} {radius : F} {ans : Nat → Option (List Nat)} {out : NngOut} (hp : PrimaryQ n lenQ primary Q)
    (h : QueriesAre n rs primary Q numQ seedable Qi) (hk : 0 < k)
    (hpost : NngPost cfg A w n L k rs radius (queriesOf seedable primary) Qi (seedOut seedable) ans out w') (hne : off (ansRows ans) n ≠ 0) :
    QueriesAre n rs primary Q out.numOk (ptrSet seedable out.outQ) (okOf ans Qi) := by
  have hne' : okOf ans Qi ≠ [] := by
    intro h0
    refine hne (off_nil fun v hv => ?_)
    rw [ansRows_nil hpost.answers hk]
    by_contra hv2
    have hvQ : v ∈ Qi := by by_contra hvQ; exact hv2 (hpost.answers.none_of v hvQ)
    have : v ∈ okOf ans Qi := List.mem_filter.2 ⟨hvQ, Option.isSome_iff_ne_none.2 hv2⟩
    rw [h0] at this; simp at this
  cases hrs : rs with
  | false =>
    obtain ⟨h1, h2⟩ := h.noRadius hrs
    subst h2
    have hall : okOf ans Qi = Qi := List.filter_eq_self.2 fun q hqm => Option.isSome_iff_ne_none.2 (hpost.answers.all (by simp [hrs]) q hqm)
    have hnum := hpost.numOk
    rw [hall] at hnum ⊢
    exact ⟨h.holds, hnum, h.sub, h.ne, fun _ => ⟨h1, rfl⟩, by simp⟩
  | true =>
    obtain ⟨b, rfl, hb⟩ := h.withRadius hrs
    have hout : seedOut (some b) ≠ .null := by simp [seedOut]
    have h1 := hpost.outQ_len hrs hout
    have h2 := hpost.outQ_pre hrs hout
    refine ⟨?_, hpost.numOk, List.filter_sublist.trans h.sub, hne', by simp, fun _ => ⟨_, rfl, ?_⟩⟩
    · exact h2
    · show out.outQ.len = _
      rw [h1]
      simpa [seedOut, OutQ.len, queriesOf] using hb

theorem unionQueries_spec {cfg : Cfg} {n lenQ k : Nat} {rs : Bool} {primary : Option Arr} {Q Qi : List Nat} {numQ : Nat} {seedable : Option (Blk Nat)} {dgs : List Digraph}
    {rowss : List (Nat → List Nat)} {w : World} (keep : Bool) (hp : PrimaryQ n lenQ primary Q) (h : QueriesAre n rs primary Q numQ seedable Qi)
    (hl : ptrOwn seedable ≤ w.live) (hne : dgs ≠ []) (hd : List.Forall₂ (fun d r => d.Repr cfg r ∧ d.n = n) dgs rowss) (hdl : ∀ d ∈ dgs, ∀ i ∈ d.ids, i ∈ w.live)
    (hlen : ∀ v ∈ Qi, (rowss.flatMap fun r => r v).length ≤ k) (hsz : n * k ≤ cfg.sizeMax) :
    WpM (unionQueries cfg dgs numQ (queriesOf seedable primary) keep) w fun r w' => match r with
      | .error e => FailPost w (SysCause w (cfg.arcMax < n * k) False) e w'
      | .ok d => w'.fails = w.fails ∧ w'.live = d.own + w.live ∧ d.n = n ∧
          d.Repr cfg (fun v => if v ∈ Qi then firstOcc (if keep then [] else [v]) (rowss.flatMap fun r => r v) else []) := by
  have key : ∀ tails : Option (List Nat), (∀ v, v < n → keepTail tails v = decide (v ∈ Qi)) → (∀ ts, tails = some ts → ts.Pairwise (· < ·) ∧ ∀ t ∈ ts, t < n) →
      WpM (unionAndDelete cfg dgs tails keep) w fun r w' => match r with
      | .error e => FailPost w (SysCause w (cfg.arcMax < n * k) False) e w'
      | .ok d => w'.fails = w.fails ∧ w'.live = d.own + w.live ∧ d.n = n ∧
          d.Repr cfg (fun v => if v ∈ Qi then firstOcc (if keep then [] else [v]) (rowss.flatMap fun r => r v) else []) := by
    intro tails htails hts
    have hrow : ∀ v, v < n → unionKeptRows keep rowss tails v = if v ∈ Qi then firstOcc (if keep then [] else [v]) (rowss.flatMap fun r => r v) else [] := by
      intro v hv
      unfold unionKeptRows unionRows
      rw [htails v hv]
      simp
    have hoff : off (unionKeptRows keep rowss tails) n ≤ n * k := by
      refine off_le_mul fun v hv => ?_
      rw [hrow v hv]
      split
      · rename_i hvQ
        exact firstOcc_length_le.trans (hlen v hvQ)
      · simp
    refine (unionAndDelete_spec keep hne hd hts hdl).mono ?_
    rintro (e | d) w' hh
    · refine ⟨hh.fails, hh.live, hh.err, ?_⟩
      rcases hh.cause with ⟨h1, h2⟩ | h1
      · exact Or.inl ⟨h1, by omega⟩
      · exact Or.inr (Or.inl h1)
    · obtain ⟨h1, h2, h3, h4, -, -⟩ := hh
      exact ⟨h1, h2, h3, h4.congr fun v hv => hrow v (h3 ▸ hv)⟩
  have hin := h.input hp hl
  unfold unionQueries
  cases hq : queriesOf seedable primary with
  | none =>
    dsimp only
    refine key none (fun v hv => ?_) (by simp)
    have hh := hin.holds
    rw [hq] at hh
    have h1 : Qi = List.range Qi.length := hh
    have h2 : Qi.length = n := by rw [hin.len]; exact hin.all hq
    rw [h1, h2]
    simp [keepTail, hv]
  | some a =>
    dsimp only
    rw [wpM_bind, wpM_useK]
    refine ⟨fun i hi => hin.live i (by rw [hq]; exact hi), ?_⟩
    have hh := hin.holds
    rw [hq] at hh
    have hr : a.buf.read numQ = some Qi := by
      rw [h.num]
      exact Pre.read hh
    rw [wp_eq hr]
    exact key (some Qi) (fun v _ => rfl) fun ts hts => by cases hts; exact ⟨hin.sorted, hin.range⟩

/-- The state of the loop over types. -/
structure TypeInv (cfg : Cfg) (A : Criterion F) (n : Nat) (R : Option F) (rs : Bool) (lab c : Nat → Nat) (primary : Option Arr) (Q : List Nat) (w0 : World) (M : Multiset Nat)
    (pre : List Nat) (st : TypeSt) (w : World) : Prop where
  fails : w.fails = w0.fails
  live : w.live = dgsOwn st.dgs + ptrOwn st.seedable + M
  rows : ∃ Qi rowss, QueriesAre n rs primary Q st.numQ st.seedable Qi ∧ List.Forall₂ (fun d r => d.Repr cfg r ∧ d.n = n) st.dgs rowss ∧
    List.Forall₂ (fun t r => ∀ v ∈ Qi, TypeRow A n R lab (c t) t v (r v)) (pre.filter fun t => 0 < c t) rowss ∧
    ∀ q ∈ Q, q ∉ Qi → ∃ t ∈ pre, 0 < c t ∧ A (typeGroup n lab t) (c t) R q none

/-- Leaving the loop with an error. -/
structure TypeStop (cause : ErrorCode → Prop) (w0 : World) (M : Multiset Nat) (p : ErrorCode × TypeSt) (w : World) : Prop where
  fails : w.fails = w0.fails
  live : w.live = dgsOwn p.2.dgs + ptrOwn p.2.seedable + M
  err : w.err.code = p.1
  cause : cause p.1

/-- Causes of failure of the digraph with type constraints. -/
def TypeCause (A : Criterion F) (w : World) (n S : Nat) (R : Option F) (lab c : Nat → Nat) (T : Nat) (Q : List Nat) (big mayRefuse : Prop) (e : ErrorCode) : Prop :=
  SysCause w big mayRefuse e ∨ e = .noSolution ∧ R ≠ none ∧ ∀ q ∈ Q, TypeInfeasible A n S R lab c T q

variable [FloatOps F]

theorem typeNngStep_spec {cfg : Cfg} {spi : Spi F} {n : Nat} {A : Criterion F} {dist : Nat → Nat → F} {mayRefuse : Prop} (hs : SpiOk spi n A dist mayRefuse)
    {S T lenQ : Nat} {tcs labels : Buf Nat} {lab c : Nat → Nat} (hti : TypeInput n T tcs labels lab c) {tc : TypeCount} (htc : TypeCountOk n T lab c tc)
    {primary : Option Arr} {Q : List Nat} (hp : PrimaryQ n lenQ primary Q) (rs : Bool) (radius : F) (hpm : n ≤ cfg.pointMax) (hsum : sumTo c T ≤ S)
    (hsz : n * S ≤ cfg.sizeMax) {w0 w : World} {M : Multiset Nat} (hM : tc.sizes.id ∈ M ∧ tc.store.id ∈ M ∧ tc.groups.id ∈ M) {i : Nat} (hi : i < T) {st : TypeSt}
    (hinv : TypeInv cfg A n (if rs then some radius else none) rs lab c primary Q w0 M (List.range i) st w) :
    WpM (typeNngStep cfg spi n tcs tc primary rs radius st i) w fun ct w' => match ct with
      | .next st' => TypeInv cfg A n (if rs then some radius else none) rs lab c primary Q w0 M (List.range (i + 1)) st' w'
      | .stop p => TypeStop (TypeCause A w0 n S (if rs then some radius else none) lab c T Q (cfg.arcMax < n * S) mayRefuse) w0 M p w' := by
  obtain ⟨a1, a2, Qi, rowss, a3, a4, a5, a6⟩ := hinv
  generalize hR : (if rs then some radius else none) = R at *
  have hQn : Q.length ≤ n := by
    have hnd : Q.Nodup := hp.sorted.imp fun h => Nat.ne_of_lt h
    have := (List.subperm_of_subset hnd (l₂ := List.range n) fun q hqm => List.mem_range.2 (hp.range q hqm)).length_le
    simpa using this
  have hML : ∀ j, j ∈ M → j ∈ w.live := fun j hj => by rw [a2]; exact Multiset.mem_add.2 (Or.inr hj)
  have hfilt : ((List.range (i + 1)).filter fun t => 0 < c t) = ((List.range i).filter fun t => 0 < c t) ++ if 0 < c i then [i] else [] := by
    rw [List.range_succ, List.filter_append]
    congr 1
    by_cases h : 0 < c i <;> simp [h]
  have hinf : ∀ q ∈ Q, q ∉ Qi → ∃ t ∈ List.range (i + 1), 0 < c t ∧ A (typeGroup n lab t) (c t) R q none := by
    intro q hq hqi
    obtain ⟨t, ht, h2⟩ := a6 q hq hqi
    exact ⟨t, by simp at ht ⊢; omega, h2⟩
  unfold typeNngStep
  rw [wpM_bind, wpM_useK]
  refine ⟨by simp, ?_⟩
  rw [wp_eq (hti.tcs i hi)]
  by_cases hc : 0 < c i
  · rw [if_pos hc, wpM_bind, wpM_useK]
    refine ⟨by intro j hj; simp at hj; rcases hj with rfl | rfl; exacts [hML _ hM.1, hML _ hM.2.2], ?_⟩
    have hgp : groupPos tc i = some ((typeGroup n lab i).length, off (typeGroup n lab) i) := by
      unfold groupPos
      rw [htc.sizes i hi, htc.groups i hi]; rfl
    rw [wp_eq hgp]
    dsimp only
    have hsl : ptrOwn st.seedable ≤ w.live := by
      rw [a2, show dgsOwn st.dgs + ptrOwn st.seedable + M = ptrOwn st.seedable + (dgsOwn st.dgs + M) by abel]
      exact Multiset.le_add_right _ _
    have hin := a3.input hp hsl
    have hci : c i ≤ S := by
      have h1 := sumTo_mono (c := c) (show i + 1 ≤ T by omega)
      rw [sumTo_succ] at h1; omega
    have hnumQ : st.numQ ≤ Q.length := by rw [a3.num]; exact a3.sub.length_le
    have hmul : st.numQ * c i ≤ n * S := Nat.mul_le_mul (hnumQ.trans hQn) hci
    rw [wpM_bind]
    refine (makeNng_spec (cfg := cfg) (search := some ⟨[tc.store.id], tc.store.buf.drop (off (typeGroup n lab) i)⟩) (L := typeGroup n lab i) (k := c i)
      (outQ := seedOut st.seedable) hs rs radius hpm (htc.store i hi) nodup_typeGroup (fun x hx => (mem_typeGroup.1 hx).1)
      (by intro j hj; simp [arrIds] at hj; subst hj; exact hML _ hM.2.1) hin hc (htc.enough i hi) (hmul.trans hsz) ?_ ?_).mono ?_
    · cases hsd : st.seedable with
      | none => left; simp [seedOut]
      | some b =>
        right
        cases hrs : rs with
        | false => have := (a3.noRadius hrs).2; rw [hsd] at this; simp at this
        | true =>
          obtain ⟨b', hb', hbl⟩ := a3.withRadius hrs
          rw [hsd] at hb'
          cases hb'
          simp [seedOut, OutQ.len, queriesOf]; omega
    · intro hsame
      cases hsd : st.seedable with
      | none => rw [hsd] at hsame; simp [seedOut] at hsame
      | some b => simp [queriesOf]
    · rintro (e | out) w1 hh
      · dsimp only
        rw [wpM_pure]
        exact ⟨hh.fails.trans a1, hh.live.trans a2, hh.err, Or.inl (hh.cause.imp a1 (fun hb => by omega) id)⟩
      · obtain ⟨ans, hpost⟩ := hh
        dsimp only
        have hids : ∀ j ∈ out.nng.ids, j ∈ w1.live := fun j hj => by rw [hpost.live]; exact Multiset.mem_add.2 (Or.inl (mem_ids_iff_own.1 hj))
        have hcsr := hpost.repr.csr
        rw [hpost.n_eq] at hcsr
        rw [wpM_bind, wpM_useK]
        refine ⟨hids, ?_⟩
        rw [wp_eq (digraphIsEmpty_spec hpost.repr), hpost.n_eq]
        have hlive1 : w1.live = dgsOwn (st.dgs ++ [out.nng]) + ptrOwn st.seedable + M := by
          rw [hpost.live, a2]; simp [dgsOwn]; abel
        have hans := hpost.answers
        rw [hR] at hans
        have hnone : ∀ q ∈ Qi, q ∉ okOf ans Qi → ans q = none := by
          intro q hq hq2
          by_contra hne
          exact hq2 (List.mem_filter.2 ⟨hq, Option.isSome_iff_ne_none.2 hne⟩)
        by_cases he : off (ansRows ans) n = 0
        · rw [decide_eq_true he, if_pos rfl, wpM_bind]
          refine wpM_mkErr fun w2 l1 l2 l3 => ?_
          rw [wpM_pure]
          refine ⟨by rw [l1, hpost.fails, a1], ?_, by rw [l3], Or.inr ⟨rfl, ?_, fun q hq => ?_⟩⟩
          · rw [l2, hlive1]; simp
          · rw [← hR]
            intro hRn
            cases hrs : rs with
            | true => simp [hrs] at hRn
            | false =>
              obtain ⟨q, hq⟩ := List.exists_mem_of_ne_nil _ a3.ne
              have h1 := hpost.answers.all hRn q hq
              exact h1 ((ansRows_nil hans hc).1 (rows_nil_of_off he q (hp.range q (a3.sub.subset hq))))
          · by_cases hqi : q ∈ Qi
            · have h1 := hans.crit q hqi
              have h2 := rows_nil_of_off he q (hp.range q hq)
              rw [(ansRows_nil hans hc).1 h2] at h1
              exact Or.inr ⟨i, hi, hc, h1⟩
            · obtain ⟨t, ht, h2⟩ := a6 q hq hqi
              simp at ht
              exact Or.inr ⟨t, by omega, h2⟩
        · rw [decide_eq_false he, if_neg Bool.false_ne_true, wpM_bind, wpM_useK]
          refine ⟨?_, ?_⟩
          · intro j hj
            rcases List.mem_cons.1 hj with rfl | hj
            · rw [hlive1]; exact Multiset.mem_add.2 (Or.inr hM.2.1)
            · exact hids j hj
          · refine (selfMatch_spec hcsr (search := some ⟨[tc.store.id], tc.store.buf.drop (off (typeGroup n lab) i)⟩) (L := typeGroup n lab i) (htc.store i hi)
              nodup_typeGroup (fun x hx => (mem_typeGroup.1 hx).1)).mono ?_
            rintro head ⟨g1, g2⟩
            rw [wpM_pure]
            have hrd : ({ out.nng with head := ptrSet out.nng.head head } : Digraph).Repr cfg (selfRows (typeGroup n lab i) (ansRows ans)) := by
              refine ⟨?_, hpost.repr.tail_len, ?_, hpost.repr.vertices, hpost.repr.arcs, hpost.repr.arcs_size, ?_⟩
              · show Csr out.nng.n (ptrBuf (ptrSet out.nng.head head)) _ _
                rw [hpost.n_eq]
                exact g2.of_get (fun _ _ => rfl) (fun i _ => ptrSet_get g1 i)
              · show (ptrBuf (ptrSet out.nng.head head)).len = _
                rw [ptrSet_len g1]; exact hpost.repr.head_len
              · show _ ↔ ptrSet out.nng.head head = none
                rw [ptrSet_eq_none]; exact hpost.repr.head_null
            have hq' := a3.next (F := F) hp hc hpost he
            refine ⟨hpost.fails.trans a1, ?_, okOf ans Qi, rowss ++ [selfRows (typeGroup n lab i) (ansRows ans)], hq', ?_, ?_, ?_⟩
            · rw [hlive1]; simp [dgsOwn, Digraph.own]
            · exact List.rel_append a4 (List.Forall₂.cons ⟨by have := hrd; dsimp only at this; rw [hpost.n_eq] at this; exact this, rfl⟩ List.Forall₂.nil)
            · rw [hfilt, if_pos hc]
              refine List.rel_append (a5.imp fun t r h v hv => h v (List.mem_filter.1 hv).1) (List.Forall₂.cons (fun v hv => ?_) List.Forall₂.nil)
              exact selfRow_type hans hv
            · intro q hq hqi
              by_cases hq2 : q ∈ Qi
              · have h1 := hans.crit q hq2
                rw [hnone q hq2 hqi] at h1
                exact ⟨i, by simp, hc, h1⟩
              · exact hinf q hq hq2
  · rw [if_neg hc, wpM_pure]
    refine ⟨a1, a2, Qi, rowss, a3, a4, ?_, hinf⟩
    rw [hfilt, if_neg hc, List.append_nil]
    exact a5

theorem length_filter_notMem {G U : List Nat} (hG : G.Nodup) : G.length ≤ (G.filter fun a => a ∉ U).length + U.length := by
  have h1 : (G.filter fun a => a ∈ U).length ≤ U.length :=
    (List.subperm_of_subset (hG.sublist List.filter_sublist) fun x hx => by simpa using (List.mem_filter.1 hx).2).length_le
  have h2 : G.length = (G.filter fun a => a ∈ U).length + (G.filter fun a => a ∉ U).length := by
    have := List.length_eq_length_filter_add (l := G) (fun a => decide (a ∈ U))
    simpa using this
  omega

theorem TypeSet.extend {A : Criterion F} {n S k : Nat} {R : Option F} {lab c : Nat → Nat} {T v : Nat} {U : List Nat} (h : TypeSet A n S R lab c T k v U) (hk : k ≤ S)
    {Q : List Nat} {ans : Nat → Option (List Nat)} (ha : Answers A (List.range n) S R Q ans) (hv : v ∈ okOf ans Q) :
    TypeSet A n S R lab c T S v (U ++ ((ansRows ans v).filter fun a => a ∉ U).take (S - k)) := by
  obtain ⟨hvQ, hvs⟩ := List.mem_filter.1 hv
  obtain ⟨l, hl⟩ := Option.isSome_iff_exists.1 hvs
  obtain ⟨h1, h2, h3⟩ := ha.row v l hl
  have hr : ansRows ans v = l := by simp [ansRows, hl]
  have hc := ha.crit v hvQ
  rw [hl] at hc
  rw [hr]
  have hmem : ∀ x ∈ (l.filter fun a => a ∉ U).take (S - k), x ∈ l ∧ x ∉ U := fun x hx => by simpa using List.mem_filter.1 (List.mem_of_mem_take hx)
  refine ⟨?_, ?_, ?_, ?_, ?_⟩
  · rw [List.nodup_append]
    refine ⟨h.nodup, (h2.sublist List.filter_sublist).sublist (List.take_sublist _ _), fun a ha b hb hab => ?_⟩
    subst hab
    exact (hmem a hb).2 ha
  · have := length_filter_notMem (U := U) h2
    rw [List.length_append, List.length_take, h.len]
    have h4 := h.len
    omega
  · intro x hx
    rcases List.mem_append.1 hx with hx | hx
    · exact h.range x hx
    · exact List.mem_range.1 (h3 (hmem x hx).1)
  · intro t ht
    rw [List.countP_append]
    have := h.types t ht
    omega
  · intro x hx hxv
    rcases List.mem_append.1 hx with hx | hx
    · exact h.from_answer x hx hxv
    · exact ⟨l, (hmem x hx).1, Or.inl ⟨hc, h1⟩⟩

theorem TypeSet.row_ne_nil {A : Criterion F} {n S : Nat} {R : Option F} {lab c : Nat → Nat} {T v : Nat} {W : List Nat} (h : TypeSet A n S R lab c T S v W) (hS : 2 ≤ S) :
    firstOcc [v] W ≠ [] := by
  intro he
  have h1 : ∀ x ∈ W, x = v := by
    intro x hx
    by_contra hxv
    have : x ∈ firstOcc [v] W := mem_firstOcc.2 ⟨hx, by simpa using hxv⟩
    rw [he] at this; simp at this
  have h2 : W.length ≤ [v].length := (List.subperm_of_subset h.nodup fun x hx => by simpa using h1 x hx).length_le
  rw [h.len] at h2
  simp at h2; omega

theorem Answers.empty_radius {A : Criterion F} {n k lenQ : Nat} {rs : Bool} {radius : F} {L : List Nat} {primary : Option Arr} {Q Qi : List Nat} {numQ : Nat} {seedable : Option (Blk Nat)}
    {ans : Nat → Option (List Nat)} (hans : Answers A L k (if rs then some radius else none) Qi ans) (hk : 0 < k) (hp : PrimaryQ n lenQ primary Q)
    (h : QueriesAre n rs primary Q numQ seedable Qi) (he : off (ansRows ans) n = 0) : (if rs then some radius else none) ≠ none := by
  intro hRn
  obtain ⟨q, hq⟩ := List.exists_mem_of_ne_nil _ h.ne
  exact hans.all hRn q hq ((ansRows_nil hans hk).1 (rows_nil_of_off he q (hp.range q (h.sub.subset hq))))

/-- What a successful digraph construction delivers. -/
structure TypeOk (cfg : Cfg) (A : Criterion F) (n S : Nat) (R : Option F) (lab c : Nat → Nat) (T : Nat) (Q : List Nat) (w : World) (M : Multiset Nat) (d : Digraph) (w' : World) : Prop where
  fails : w'.fails = w.fails
  live : w'.live = d.own + M
  n_eq : d.n = n
  rows : ∃ rows, d.Repr cfg rows ∧ TypeNng A n S R lab c T Q rows ∧ ∃ v < n, rows v ≠ []

theorem TypeNng.mk' {A : Criterion F} {n S T lenQ : Nat} {lab c : Nat → Nat} {rs : Bool} {radius : F} {primary : Option Arr} {Q Qi : List Nat} {numQ : Nat} {seedable : Option (Blk Nat)}
    (hp : PrimaryQ n lenQ primary Q) (h : QueriesAre n rs primary Q numQ seedable Qi) (hS : 2 ≤ S) {W : Nat → List Nat} {rows : Nat → List Nat}
    (hW : ∀ v ∈ Qi, TypeSet A n S (if rs then some radius else none) lab c T S v (W v)) (hT : ∀ v ∈ Qi, TypeTakes A n S (if rs then some radius else none) lab c T v (W v)) (hrows : ∀ v, rows v = if v ∈ Qi then firstOcc [v] (W v) else [])
    (hinf : ∀ q ∈ Q, q ∉ Qi → TypeInfeasible A n S (if rs then some radius else none) lab c T q) :
    TypeNng A n S (if rs then some radius else none) lab c T Q rows ∧ ∃ v < n, rows v ≠ [] := by
  have hne : ∀ v ∈ Qi, rows v ≠ [] := fun v hv => by rw [hrows, if_pos hv]; exact (hW v hv).row_ne_nil hS
  refine ⟨⟨fun v hv => ?_, fun v hv h0 => ?_, fun v hv h0 => ?_⟩, ?_⟩
  · by_cases hvi : v ∈ Qi
    · exact Or.inr ⟨h.sub.subset hvi, W v, hW v hvi, by rw [hrows, if_pos hvi]⟩
    · exact Or.inl (by rw [hrows, if_neg hvi])
  · have hvi : v ∉ Qi := fun hvi => hne v hvi h0
    refine ⟨?_, hinf v hv hvi⟩
    cases hrs : rs with
    | true => simp
    | false => exact absurd ((h.noRadius hrs).1 ▸ hv) hvi
  · by_cases hvi : v ∈ Qi
    · exact ⟨W v, hT v hvi, by rw [hrows, if_pos hvi]⟩
    · exact absurd (by rw [hrows, if_neg hvi]) h0
  · obtain ⟨q, hq⟩ := List.exists_mem_of_ne_nil _ h.ne
    exact ⟨q, hp.range q (h.sub.subset hq), hne q hq⟩

theorem addGeneral_spec {cfg : Cfg} {spi : Spi F} {n : Nat} {A : Criterion F} {dist : Nat → Nat → F} {mayRefuse : Prop} (hs : SpiOk spi n A dist mayRefuse)
    {S T lenQ sum : Nat} {lab c : Nat → Nat} {primary : Option Arr} {Q : List Nat} (hp : PrimaryQ n lenQ primary Q) (rs : Bool) (radius : F) (hpm : n ≤ cfg.pointMax)
    (hsum : sum ≤ S) (hS : 2 ≤ S) (hSn : S ≤ n) (hsz : n * S ≤ cfg.sizeMax) {w : World} {M : Multiset Nat} {numQ : Nat} {seedable : Option (Blk Nat)} {Qi : List Nat}
    (hq : QueriesAre n rs primary Q numQ seedable Qi) {d : Digraph} {U : Nat → List Nat} (hU : ∀ v ∈ Qi, TypeSet A n S (if rs then some radius else none) lab c T sum v (U v))
    (hsumT : sum = sumTo c T) (hUt : ∀ v ∈ Qi, ∃ a : Nat → List Nat, (∀ t, t < T → 0 < c t → A (typeGroup n lab t) (c t) (if rs then some radius else none) v (some (a t)) ∧ (a t).length = c t) ∧
      U v = typePart lab c T v a)
    (hd : d.Repr cfg (fun v => if v ∈ Qi then firstOcc (if decide (sum < S) then [] else [v]) (U v) else [])) (hdn : d.n = n)
    (hlive : w.live = d.own + ptrOwn seedable + M)
    (hinf : ∀ q ∈ Q, q ∉ Qi → ∃ t < T, 0 < c t ∧ A (typeGroup n lab t) (c t) (if rs then some radius else none) q none) :
    WpM (addGeneral cfg spi n S sum primary rs radius numQ seedable d) w fun r w' => match r with
      | .error e => FailPost { w with live := M } (TypeCause A w n S (if rs then some radius else none) lab c T Q (cfg.arcMax < n * S) mayRefuse) e w'
      | .ok d' => TypeOk cfg A n S (if rs then some radius else none) lab c T Q w M d' w' := by
  have hQn : Q.length ≤ n := by
    have hnd : Q.Nodup := hp.sorted.imp fun h => Nat.ne_of_lt h
    have := (List.subperm_of_subset hnd (l₂ := List.range n) fun q hqm => List.mem_range.2 (hp.range q hqm)).length_le
    simpa using this
  have hnumQ : numQ ≤ Q.length := by rw [hq.num]; exact hq.sub.length_le
  have hmul : numQ * S ≤ n * S := Nat.mul_le_mul_right S (hnumQ.trans hQn)
  unfold addGeneral
  by_cases hlt : sum < S
  · rw [if_pos hlt, wpM_bind]
    rw [decide_eq_true hlt] at hd
    simp only [↓reduceIte] at hd
    have hsl : ptrOwn seedable ≤ w.live := by
      rw [hlive, show d.own + ptrOwn seedable + M = ptrOwn seedable + (d.own + M) by abel]
      exact Multiset.le_add_right _ _
    have hin := hq.input hp hsl
    have hmk := makeNng_spec (cfg := cfg) (search := none) (L := List.range n) (k := S) (outQ := seedOut seedable) hs rs radius hpm (arrHolds_range n) List.nodup_range
      (fun x hx => List.mem_range.1 hx) (by simp [arrIds]) hin (by omega) (by simpa using hSn) (hmul.trans hsz) (by
        cases hsd : seedable with
        | none => left; simp [seedOut]
        | some b =>
          right
          cases hrs : rs with
          | false => have := (hq.noRadius hrs).2; rw [hsd] at this; simp at this
          | true =>
            obtain ⟨b', hb', hbl⟩ := hq.withRadius hrs
            rw [hsd] at hb'
            cases hb'
            simp [seedOut, OutQ.len, queriesOf]; omega) (by
        intro hsame
        cases hsd : seedable with
        | none => rw [hsd] at hsame; simp [seedOut] at hsame
        | some b => simp [queriesOf])
    rw [List.length_range] at hmk
    refine hmk.mono ?_
    rintro (e | out) w1 hh
    · dsimp only
      rw [wpM_bind]
      refine wpM_freePtr (d.own + M) (by rw [hh.live, hlive]; abel) fun w2 k1 k2 k3 => ?_
      rw [wpM_bind]
      refine freeDigraph_spec M k2 fun w3 l1 l2 l3 => ?_
      rw [wpM_pure]
      exact ⟨by rw [l1, k1, hh.fails], l2, by rw [l3, k3, hh.err], Or.inl (hh.cause.imp rfl (fun hb => by omega) id)⟩
    · obtain ⟨ans, hpost⟩ := hh
      dsimp only
      have hans := hpost.answers
      have hids : ∀ j ∈ out.nng.ids, j ∈ w1.live := fun j hj => by rw [hpost.live]; exact Multiset.mem_add.2 (Or.inl (mem_ids_iff_own.1 hj))
      have hlive1 : w1.live = out.nng.own + (d.own + ptrOwn seedable + M) := by rw [hpost.live, hlive]
      have hinf2 : ∀ q ∈ Q, q ∉ okOf ans Qi → TypeInfeasible A n S (if rs then some radius else none) lab c T q := by
        intro q hqm hq2
        by_cases hqi : q ∈ Qi
        · have h1 := hans.crit q hqi
          have : ans q = none := by
            by_contra hne
            exact hq2 (List.mem_filter.2 ⟨hqi, Option.isSome_iff_ne_none.2 hne⟩)
          rw [this] at h1
          exact Or.inl ⟨hsumT ▸ hlt, h1⟩
        · exact Or.inr (hinf q hqm hqi)
      have finErr : ∀ (ec : ErrorCode) (m : Digraph) (w2 : World), ec ≠ .ok → w2.fails = w.fails → w2.live = m.own + (d.own + ptrOwn seedable + M) → w2.err.code = ec →
          TypeCause A w n S (if rs then some radius else none) lab c T Q (cfg.arcMax < n * S) mayRefuse ec →
          WpM (do
            let _ ← freeDigraph d
            let _ ← freeDigraph m
            freePtr seedable
            pure (Except.error ec) : Scc.M (Except ErrorCode Digraph)) w2 fun r w' => match r with
          | .error e => FailPost { w with live := M } (TypeCause A w n S (if rs then some radius else none) lab c T Q (cfg.arcMax < n * S) mayRefuse) e w'
          | .ok d' => TypeOk cfg A n S (if rs then some radius else none) lab c T Q w M d' w' := by
        intro ec m w2 hne h1 h2 h3 h4
        rw [wpM_bind]
        refine freeDigraph_spec (m.own + ptrOwn seedable + M) (by rw [h2]; abel) fun w3 k1 k2 k3 => ?_
        rw [wpM_bind]
        refine freeDigraph_spec (ptrOwn seedable + M) (by rw [k2]; abel) fun w4 l1 l2 l3 => ?_
        rw [wpM_bind]
        refine wpM_freePtr M l2 fun w5 m1 m2 m3 => ?_
        rw [wpM_pure]
        exact ⟨by rw [m1, l1, k1, h1], m2, by rw [m3, l3, k3, h3], h4⟩
      rw [wpM_bind]
      unfold extraArcs
      rw [wpM_bind, wpM_useK]
      refine ⟨hids, ?_⟩
      rw [wp_eq (digraphIsEmpty_spec hpost.repr), hpost.n_eq]
      by_cases he : off (ansRows ans) n = 0
      · rw [decide_eq_true he, if_pos rfl, wpM_bind]
        refine wpM_mkErr fun w2 l1 l2 l3 => ?_
        rw [wpM_pure]
        dsimp only
        rw [if_pos (by simp)]
        refine finErr _ _ _ (by simp) (by rw [l1, hpost.fails]) (by rw [l2, hlive1]) (by rw [l3]) (Or.inr ⟨rfl, hans.empty_radius (by omega) hp hq he, fun q hqm => ?_⟩)
        refine hinf2 q hqm fun hq2 => ?_
        obtain ⟨h1, h2⟩ := List.mem_filter.1 hq2
        rw [(ansRows_nil hans (by omega)).1 (rows_nil_of_off he q (hp.range q hqm))] at h2
        simp at h2
      · rw [decide_eq_false he, if_neg Bool.false_ne_true]
        refine (digraphDifference_spec (L := d.own + ptrOwn seedable + M) (mx := S - sum) hpost.repr hd (by rw [hdn, hpost.n_eq]) hlive1
          (fun j hj => Multiset.mem_add.2 (Or.inl (Multiset.mem_add.2 (Or.inl (mem_ids_iff_own.1 hj)))))).mono ?_
        rintro ⟨ec, m⟩ w2 hm
        dsimp only
        rcases hm.cause with ⟨b1, b2, b3⟩ | ⟨b1, b2, b3, b4⟩
        · dsimp only at b1 b2
          subst b1
          rw [if_neg (by simp), wpM_bind]
          have hmn : m.n = n := hm.n_eq.trans hpost.n_eq
          have hq' := hq.next (F := F) hp (by omega) hpost he
          have hlive2 : w2.live = m.own + (d.own + ptrOwn seedable + M) := hm.live
          have hptr : ptrOwn (ptrSet seedable out.outQ) = ptrOwn seedable := ptrOwn_ptrSet
          have hW : ∀ v ∈ okOf ans Qi, TypeSet A n S (if rs then some radius else none) lab c T S v (U v ++ ((ansRows ans v).filter fun a => a ∉ U v).take (S - sum)) :=
            fun v hv => (hU v (List.mem_filter.1 hv).1).extend hsum hans hv
          have hWt : ∀ v ∈ okOf ans Qi, TypeTakes A n S (if rs then some radius else none) lab c T v (U v ++ ((ansRows ans v).filter fun a => a ∉ U v).take (S - sum)) := by
            intro v hv
            obtain ⟨hvi, hvs⟩ := List.mem_filter.1 hv
            obtain ⟨l, hl⟩ := Option.isSome_iff_exists.1 hvs
            obtain ⟨a, ha1, ha2⟩ := hUt v hvi
            have hcr := hans.crit v hvi
            rw [hl] at hcr
            refine ⟨a, ha1, Or.inr ⟨hsumT ▸ hlt, l, hcr, (hans.row v l hl).1, ?_⟩⟩
            rw [ha2, hsumT, show ansRows ans v = l by simp [ansRows, hl]]
          have hflat : ∀ v ∈ okOf ans Qi, ([fun v => if v ∈ Qi then firstOcc [] (U v) else [],
              differenceRows (ansRows ans) (fun v => if v ∈ Qi then firstOcc [] (U v) else []) (S - sum)].flatMap fun r => r v) =
              U v ++ ((ansRows ans v).filter fun a => a ∉ U v).take (S - sum) := by
            intro v hv
            have hvi := (List.mem_filter.1 hv).1
            simp only [List.flatMap_cons, List.flatMap_nil, List.append_nil, differenceRows, if_pos hvi]
            rw [firstOcc_eq_self (hU v hvi).nodup (by simp)]
          refine (unionQueries_spec (cfg := cfg) (k := S) (dgs := [d, m]) false hp hq' ?_ (by simp)
            (List.Forall₂.cons ⟨hd, hdn⟩ (List.Forall₂.cons ⟨b2, hmn⟩ List.Forall₂.nil)) ?_ (fun v hv => ?_) hsz).mono ?_
          · rw [hptr, hlive2, show m.own + (d.own + ptrOwn seedable + M) = ptrOwn seedable + (m.own + d.own + M) by abel]
            exact Multiset.le_add_right _ _
          · intro g hg j hj
            rw [hlive2]
            simp only [List.mem_cons, List.not_mem_nil, or_false] at hg
            rcases hg with rfl | rfl
            · exact Multiset.mem_add.2 (Or.inr (Multiset.mem_add.2 (Or.inl (Multiset.mem_add.2 (Or.inl (mem_ids_iff_own.1 hj))))))
            · exact Multiset.mem_add.2 (Or.inl (mem_ids_iff_own.1 hj))
          · rw [hflat v hv, (hW v hv).len]
          · intro u w3 hu
            have hl3 : ∃ uo : Multiset Nat, w3.live = uo + (m.own + (d.own + ptrOwn seedable + M)) ∧ w3.fails = w.fails ∧
                (match u with
                | .error e => uo = 0 ∧ w3.err.code = e ∧ SysCause w (cfg.arcMax < n * S) mayRefuse e
                | .ok g => uo = g.own ∧ TypeNng A n S (if rs then some radius else none) lab c T Q (fun v => if v ∈ okOf ans Qi then firstOcc [v] (U v ++ ((ansRows ans v).filter fun a => a ∉ U v).take (S - sum)) else []) ∧
                    (∃ v < n, (if v ∈ okOf ans Qi then firstOcc [v] (U v ++ ((ansRows ans v).filter fun a => a ∉ U v).take (S - sum)) else []) ≠ []) ∧ g.n = n ∧
                    g.Repr cfg (fun v => if v ∈ okOf ans Qi then firstOcc [v] (U v ++ ((ansRows ans v).filter fun a => a ∉ U v).take (S - sum)) else [])) := by
              cases u with
              | error e =>
                exact ⟨0, by rw [hu.live, hlive2, zero_add], by rw [hu.fails, hm.fails, hpost.fails], rfl, hu.err,
                  hu.cause.imp (by rw [hm.fails, hpost.fails]) id False.elim⟩
              | ok g =>
                obtain ⟨u1, u2, u3, u4⟩ := hu
                obtain ⟨t1, t2⟩ := TypeNng.mk' hp hq' hS hW hWt (rows := fun v => if v ∈ okOf ans Qi then firstOcc [v] (U v ++ ((ansRows ans v).filter fun a => a ∉ U v).take (S - sum)) else [])
                  (fun v => rfl) hinf2
                refine ⟨g.own, by rw [u2, hlive2], by rw [u1, hm.fails, hpost.fails], rfl, t1, t2, u3, u4.congr fun v hv => ?_⟩
                split
                · rename_i hvi
                  rw [hflat v hvi]; rfl
                · rfl
            obtain ⟨uo, f1, f2, f3⟩ := hl3
            rw [wpM_bind]
            refine freeDigraph_spec (uo + m.own + ptrOwn seedable + M) (by rw [f1]; abel) fun w4 k1 k2 k3 => ?_
            rw [wpM_bind]
            refine freeDigraph_spec (uo + ptrOwn seedable + M) (by rw [k2]; abel) fun w5 l1 l2 l3 => ?_
            rw [wpM_bind]
            refine wpM_freePtr (uo + M) (by rw [l2]; abel) fun w6 m1 m2 m3 => ?_
            rw [wpM_pure]
            cases u with
            | error e =>
              obtain ⟨g1, g2, g3⟩ := f3
              subst g1
              exact ⟨by rw [m1, l1, k1, f2], by rw [m2, zero_add], by rw [m3, l3, k3, g2], Or.inl g3⟩
            | ok g =>
              obtain ⟨g1, g2, g3, g4, g5⟩ := f3
              subst g1
              exact ⟨by rw [m1, l1, k1, f2], m2, g4, _, g5, g2, g3⟩
        · dsimp only at b1 b2
          subst b1
          rw [if_pos (by simp)]
          refine finErr _ _ _ (by simp) (by rw [hm.fails, hpost.fails]) hm.live b2 (Or.inl (Or.inr (Or.inl ⟨rfl, fun hn => b3 ?_⟩)))
          exact (noFail_congr hpost.fails).2 hn
  · rw [if_neg hlt, wpM_bind]
    rw [decide_eq_false hlt] at hd
    simp only [Bool.false_eq_true, ↓reduceIte] at hd
    have hsumS : sum = S := by omega
    have hUt' : ∀ v ∈ Qi, TypeTakes A n S (if rs then some radius else none) lab c T v (U v) := fun v hv => by
      obtain ⟨a, ha1, ha2⟩ := hUt v hv
      exact ⟨a, ha1, Or.inl ⟨hsumT ▸ hsumS, ha2⟩⟩
    subst hsumS
    refine wpM_freePtr (d.own + M) (by rw [hlive]; abel) fun w2 k1 k2 k3 => ?_
    rw [wpM_pure]
    obtain ⟨t1, t2⟩ := TypeNng.mk' hp hq hS hU hUt' (rows := fun v => if v ∈ Qi then firstOcc [v] (U v) else []) (fun v => rfl) (fun q hqm hqi => Or.inr (hinf q hqm hqi))
    exact ⟨k1, k2, hdn, _, hd, t1, t2⟩

theorem range_split {T i : Nat} {pre post : List Nat} (h : List.range T = pre ++ i :: post) : pre = List.range i ∧ i < T := by
  have h1 : (List.range T)[pre.length]? = some i := by rw [h]; simp
  have h2 : pre.length < T := by
    have := congrArg List.length h
    simp at this; omega
  rw [List.getElem?_range h2] at h1
  cases h1
  refine ⟨?_, h2⟩
  have h3 : pre = (List.range T).take pre.length := by rw [h]; simp
  rw [List.take_range, Nat.min_eq_left h2.le] at h3
  exact h3

theorem fillSeedable_spec {n lenQ : Nat} {primary : Option Arr} {Q : List Nat} (hp : PrimaryQ n lenQ primary Q) {b : Buf Nat} (hb : b.len = lenQ) :
    Wp (fillSeedable n lenQ primary b) fun b' => b'.len = lenQ ∧ Pre b' Q := by
  have hget : ∀ i, i < lenQ → ∃ x, Q[i]? = some x := fun i hi => ⟨Q[i]'(by rw [hp.len]; exact hi), List.getElem?_eq_getElem _⟩
  have key : ∀ f : Nat → Buf Nat → Option (Buf Nat), (∀ i x b, Q[i]? = some x → f i b = b.set i x) →
      Wp (forLt 0 lenQ b f) fun b' => b'.len = lenQ ∧ Pre b' Q := by
    intro f hf
    refine wp_forLt (fun i b' => b'.len = lenQ ∧ ∀ j x, j < i → Q[j]? = some x → b'.get j = some x) (Nat.zero_le _) ⟨hb, fun j x hj => by omega⟩ ?_ ?_
    · rintro i b' - hi ⟨h1, h2⟩
      obtain ⟨x, hx⟩ := hget i hi
      rw [hf i x b' hx]
      refine Buf.wp_set.2 ⟨by omega, by simpa using h1, fun j y hj hy => ?_⟩
      by_cases hji : j = i
      · subst hji
        rw [Buf.get_upd_self _ _ (by omega), ← hx, hy]
      · rw [Buf.get_upd_ne _ _ hji]
        exact h2 j y (by omega) hy
    · rintro b' ⟨h1, h2⟩
      refine ⟨h1, fun j x hx => h2 j x ?_ hx⟩
      have := (List.getElem?_eq_some_iff.1 hx).1
      rwa [hp.len] at this
  cases primary with
  | none =>
    have hn := hp.all rfl
    subst hn
    refine key _ fun i x b hx => ?_
    have := idxGet_holds hp.holds hx
    simp [idxGet] at this
    rw [this]
  | some a =>
    refine key _ fun i x b hx => ?_
    have h1 : a.buf.get i = some x := hp.holds i x hx
    rw [h1]; rfl

theorem initSeedable_spec {n lenQ : Nat} {primary : Option Arr} {Q : List Nat} (hp : PrimaryQ n lenQ primary Q) (rs : Bool) {w : World} :
    WpM (initSeedable n lenQ primary rs) w fun r w' => match r with
      | .error e => FailPost w (fun e => e = .noMemory ∧ ¬ w.NoFail) e w'
      | .ok s => w'.fails = w.fails ∧ w'.live = ptrOwn s + w.live ∧ QueriesAre n rs primary Q lenQ s Q := by
  have hne : Q ≠ [] := by
    intro h0
    have h1 := hp.pos
    rw [← hp.len, h0] at h1
    simp at h1
  unfold initSeedable
  cases rs with
  | false =>
    rw [if_neg Bool.false_ne_true, wpM_pure]
    exact ⟨rfl, by simp, hp.holds, hp.len.symm, List.Sublist.refl _, hne, fun _ => ⟨rfl, rfl⟩, by simp⟩
  | true =>
    rw [if_pos rfl, wpM_bind]
    refine wpM_alloc (fun w1 hf k1 k2 k3 => ?_) (fun i w1 k1 k2 k3 => ?_)
    · dsimp only
      exact wpM_fail fun w2 l1 l2 l3 => ⟨by rw [l1, k1], by rw [l2, k2], by rw [l3], rfl, hf⟩
    · dsimp only
      rw [wpM_bind, wpM_useK]
      refine ⟨by intro j hj; rw [hp.ids] at hj; simp at hj; subst hj; rw [k2]; simp, ?_⟩
      refine (fillSeedable_spec hp (by simp)).mono ?_
      rintro b ⟨h1, h2⟩
      rw [wpM_pure]
      exact ⟨k1, k2, h2, hp.len.symm, List.Sublist.refl _, hne, by simp, fun _ => ⟨_, rfl, by rw [hp.len]; exact h1⟩⟩

theorem mem_ids_dgsOwn {dgs : List Digraph} {d : Digraph} (hd : d ∈ dgs) {i : Nat} (hi : i ∈ d.ids) : i ∈ dgsOwn dgs := by
  induction dgs with
  | nil => simp at hd
  | cons e dgs ih =>
    rcases List.mem_cons.1 hd with rfl | hd
    · simp only [dgsOwn, List.map_cons, List.sum_cons]
      exact Multiset.mem_add.2 (Or.inl (mem_ids_iff_own.1 hi))
    · simp only [dgsOwn, List.map_cons, List.sum_cons]
      exact Multiset.mem_add.2 (Or.inr (ih hd))

theorem sumTo_eq_sum (c : Nat → Nat) (T : Nat) : sumTo c T = ((List.range T).map c).sum := by
  induction T with
  | zero => simp [sumTo]
  | succ T ih => rw [sumTo_succ, ih, List.range_succ]; simp

/-- Causes of failure, including too few points of a type and a size constraint below the sum of the type constraints. -/
def TypesCause (A : Criterion F) (w : World) (n S : Nat) (R : Option F) (lab c : Nat → Nat) (T : Nat) (Q : List Nat) (big mayRefuse : Prop) (e : ErrorCode) : Prop :=
  TypeCause A w n S R lab c T Q big mayRefuse e ∨ e = .noSolution ∧ (∃ t < T, (typeGroup n lab t).length < c t) ∨ e = .invalidInput ∧ S < sumTo c T

/-- The outcome of the loop over types. -/
def TypeLoopRes (cfg : Cfg) (A : Criterion F) (n S : Nat) (R : Option F) (rs : Bool) (lab c : Nat → Nat) (T : Nat) (primary : Option Arr) (Q : List Nat) (mayRefuse : Prop)
    (w0 : World) (M : Multiset Nat) (r : Ctl TypeSt (ErrorCode × TypeSt)) (w : World) : Prop :=
  match r with
  | .next st => TypeInv cfg A n R rs lab c primary Q w0 M (List.range T) st w
  | .stop p => TypeStop (TypeCause A w0 n S R lab c T Q (cfg.arcMax < n * S) mayRefuse) w0 M p w

theorem combineTypes_spec {cfg : Cfg} {spi : Spi F} {n : Nat} {A : Criterion F} {dist : Nat → Nat → F} {mayRefuse : Prop} (hs : SpiOk spi n A dist mayRefuse)
    {S T lenQ : Nat} {lab c : Nat → Nat} {primary : Option Arr} {Q : List Nat} (hp : PrimaryQ n lenQ primary Q) (rs : Bool) (radius : F) (hpm : n ≤ cfg.pointMax)
    (hsum : sumTo c T ≤ S) (hpos : ∃ t < T, 0 < c t) (hS : 2 ≤ S) (hSn : S ≤ n) (hsz : n * S ≤ cfg.sizeMax) {w0 w : World} {M : Multiset Nat} {arrId : Nat}
    {r : Ctl TypeSt (ErrorCode × TypeSt)}
    (hr : TypeLoopRes cfg A n S (if rs then some radius else none) rs lab c T primary Q mayRefuse w0 ({arrId} + M) r w) :
    WpM (combineTypes cfg spi n S (sumTo c T) arrId primary rs radius r) w fun r w' => match r with
      | .error e => FailPost { w0 with live := M } (TypeCause A w0 n S (if rs then some radius else none) lab c T Q (cfg.arcMax < n * S) mayRefuse) e w'
      | .ok d' => TypeOk cfg A n S (if rs then some radius else none) lab c T Q w0 M d' w' := by
  unfold combineTypes
  rcases r with st | ⟨ec, st⟩
  · replace hr : TypeInv _ _ _ _ _ _ _ _ _ _ _ _ _ _ := hr
    dsimp only
    obtain ⟨a1, a2, Qi, rowss, a3, a4, a5, a6⟩ := hr
    rw [wpM_bind]
    unfold touch
    rw [wpM_useK]
    refine ⟨by intro j hj; simp at hj; subst hj; rw [a2]; simp, ?_⟩
    rw [wp_some, wpM_bind]
    have hU : ∀ v ∈ Qi, TypeSet A n S (if rs then some radius else none) lab c T (sumTo c T) v (rowss.flatMap fun r => r v) := by
      intro v hv
      obtain ⟨b1, b2, b3, b4, b5⟩ := typeSet_of_rows (v := v) (S := S) (T := T) (List.nodup_range.sublist List.filter_sublist) (fun t ht => List.mem_range.1 (List.mem_filter.1 ht).1) (a5.imp fun t r h => h v hv)
      refine ⟨b1, by rw [b2, sum_filter_pos, sumTo_eq_sum], fun x hx => (b3 x hx).1, fun t ht => ?_, b5⟩
      by_cases hc : 0 < c t
      · exact b4 t (List.mem_filter.2 ⟨List.mem_range.2 ht, by simpa using hc⟩)
      · omega
    have hUt : ∀ v ∈ Qi, ∃ a : Nat → List Nat, (∀ t, t < T → 0 < c t → A (typeGroup n lab t) (c t) (if rs then some radius else none) v (some (a t)) ∧ (a t).length = c t) ∧
        (rowss.flatMap fun r => r v) = typePart lab c T v a := by
      intro v hv
      obtain ⟨a, b1, b2⟩ := takes_of_rows (hp.range v (a3.sub.subset hv)) (List.nodup_range.sublist List.filter_sublist) (a5.imp fun t r h => h v hv)
      exact ⟨a, fun t ht hc => b1 t (List.mem_filter.2 ⟨List.mem_range.2 ht, by simpa using hc⟩), b2⟩
    have hne : st.dgs ≠ [] := by
      obtain ⟨t, ht, hc⟩ := hpos
      intro h0
      rw [h0] at a4
      cases a4
      have hm : t ∈ (List.range T).filter fun t => 0 < c t := List.mem_filter.2 ⟨List.mem_range.2 ht, by simpa using hc⟩
      generalize (List.range T).filter (fun t => decide (0 < c t)) = l at a5 hm
      cases a5
      simp at hm
    refine (unionQueries_spec (cfg := cfg) (k := S) (decide (sumTo c T < S)) hp a3 ?_ hne a4 ?_ (fun v hv => ?_) hsz).mono ?_
    · rw [a2, show dgsOwn st.dgs + ptrOwn st.seedable + ({arrId} + M) = ptrOwn st.seedable + (dgsOwn st.dgs + ({arrId} + M)) by abel]
      exact Multiset.le_add_right _ _
    · intro d hd i hi
      rw [a2]
      exact Multiset.mem_add.2 (Or.inl (Multiset.mem_add.2 (Or.inl (mem_ids_dgsOwn hd hi))))
    · rw [(hU v hv).len]; exact hsum
    · rintro (e | d) w1 hu
      · rw [wpM_bind]
        refine freeDigraphs_spec (ptrOwn st.seedable + ({arrId} + M)) (by rw [hu.live, a2]; abel) fun w2 k1 k2 k3 => ?_
        rw [wpM_bind]
        refine wpM_freeId (ptrOwn st.seedable + M) (by rw [k2]; abel) fun w3 l1 l2 l3 => ?_
        dsimp only
        rw [wpM_bind]
        refine wpM_freePtr M l2 fun w4 m1 m2 m3 => ?_
        rw [wpM_pure]
        exact ⟨by rw [m1, l1, k1, hu.fails, a1], m2, by rw [m3, l3, k3, hu.err], Or.inl (hu.cause.imp a1 id False.elim)⟩
      · obtain ⟨u1, u2, u3, u4⟩ := hu
        rw [wpM_bind]
        refine freeDigraphs_spec (d.own + ptrOwn st.seedable + ({arrId} + M)) (by rw [u2, a2]; abel) fun w2 k1 k2 k3 => ?_
        rw [wpM_bind]
        refine wpM_freeId (d.own + ptrOwn st.seedable + M) (by rw [k2]; abel) fun w3 l1 l2 l3 => ?_
        dsimp only
        have hf : w3.fails = w0.fails := by rw [l1, k1, u1, a1]
        refine (addGeneral_spec (M := M) hs hp rs radius hpm hsum hS hSn hsz a3 hU rfl hUt u4 u3 l2 (fun q hq hqi => ?_)).mono ?_
        · obtain ⟨t, ht, h2⟩ := a6 q hq hqi
          exact ⟨t, List.mem_range.1 ht, h2⟩
        · rintro (e | d') w4 hh
          · exact ⟨hh.fails.trans hf, hh.live, hh.err, hh.cause.imp (fun h => h.imp hf id id) id⟩
          · exact ⟨hh.fails.trans hf, hh.live, hh.n_eq, hh.rows⟩
  · replace hr : TypeStop _ _ _ _ _ := hr
    dsimp only
    rw [wpM_bind]
    refine freeDigraphs_spec (ptrOwn st.seedable + ({arrId} + M)) (by rw [hr.live]; abel) fun w2 k1 k2 k3 => ?_
    rw [wpM_bind]
    refine wpM_freeId (ptrOwn st.seedable + M) (by rw [k2]; abel) fun w3 l1 l2 l3 => ?_
    rw [wpM_bind]
    refine wpM_freePtr M l2 fun w4 m1 m2 m3 => ?_
    rw [wpM_pure]
    exact ⟨by rw [m1, l1, k1, hr.fails], m2, by rw [m3, l3, k3, hr.err], hr.cause⟩

theorem nngTypeArcs_spec {cfg : Cfg} {spi : Spi F} {n : Nat} {A : Criterion F} {dist : Nat → Nat → F} {mayRefuse : Prop} (hs : SpiOk spi n A dist mayRefuse)
    {w : World} {S T lenPrimary : Nat} {tcs labels : Buf Nat} {lab c : Nat → Nat} (hti : TypeInput n T tcs labels lab c) {primary : Option Arr} {Q : List Nat}
    (hp : PrimaryQ n (if primary.isNone then n else lenPrimary) primary Q) (rs : Bool) (radius : F) (hpm : n ≤ cfg.pointMax)
    (hsum : sumTo c T < 2 ^ 32) (hpos : ∃ t < T, 0 < c t) (hS : 2 ≤ S) (hSn : S ≤ n) (hsz : n * S ≤ cfg.sizeMax) :
    WpM (nngTypeArcs cfg spi n S T tcs labels lenPrimary primary rs radius) w fun r w' => match r with
      | .error e => FailPost w (TypesCause A w n S (if rs then some radius else none) lab c T Q (cfg.arcMax < n * S) mayRefuse) e w'
      | .ok d => TypeOk cfg A n S (if rs then some radius else none) lab c T Q w w.live d w' := by
  have hT : 0 < T := by obtain ⟨t, ht, -⟩ := hpos; omega
  unfold nngTypeArcs
  rw [wpM_bind]
  refine (initSeedable_spec hp rs).mono ?_
  rintro (e | seedable) w1 h1
  · dsimp only
    rw [wpM_pure]
    exact h1.mono fun h => Or.inl (Or.inl (Or.inr (Or.inl h)))
  · obtain ⟨a1, a2, a3⟩ := h1
    dsimp only
    rw [wpM_bind]
    refine wpM_alloc (fun w2 hf k1 k2 k3 => ?_) (fun arrId w2 k1 k2 k3 => ?_)
    · dsimp only
      rw [wpM_bind]
      refine wpM_freePtr w.live (by rw [k2, a2]) fun w3 l1 l2 l3 => ?_
      exact wpM_fail fun w4 m1 m2 m3 => ⟨by rw [m1, l1, k1, a1], by rw [m2, l2], by rw [m3],
        Or.inl (Or.inl (Or.inr (Or.inl ⟨rfl, by rwa [noFail_congr a1] at hf⟩)))⟩
    · dsimp only
      rw [wpM_bind]
      refine (typeCount_spec hti hsum hT).mono ?_
      rintro (e | tc) w3 h3
      · dsimp only
        rw [wpM_bind]
        refine wpM_freePtr ({arrId} + w.live) (by rw [h3.live, k2, a2]; abel) fun w4 l1 l2 l3 => ?_
        rw [wpM_bind]
        refine wpM_freeId w.live l2 fun w5 m1 m2 m3 => ?_
        rw [wpM_pure]
        refine ⟨by rw [m1, l1, h3.fails, k1, a1], m2, by rw [m3, l3, h3.err], ?_⟩
        rcases h3.cause with ⟨h, hf⟩ | h | h
        · exact Or.inl (Or.inl (Or.inr (Or.inl ⟨h, by rwa [noFail_congr (k1.trans a1)] at hf⟩)))
        · exact Or.inr (Or.inl h)
        · exact Or.inr (Or.inr h)
      · obtain ⟨t1, t2, t3, t4, t5⟩ := h3
        dsimp only
        rw [wpM_bind]
        have hM : ∀ j, j = tc.sizes.id ∨ j = tc.store.id ∨ j = tc.groups.id → j ∈ ({tc.sizes.id} + {tc.store.id} + {tc.groups.id} + ({arrId} + w.live) : Multiset Nat) := by
          rintro j (rfl | rfl | rfl) <;> simp
        refine (wpM_foldBM (TypeInv cfg A n (if rs then some radius else none) rs lab c primary Q w ({tc.sizes.id} + {tc.store.id} + {tc.groups.id} + ({arrId} + w.live)))
          (TypeStop (TypeCause A w n S (if rs then some radius else none) lab c T Q (cfg.arcMax < n * S) mayRefuse) w ({tc.sizes.id} + {tc.store.id} + {tc.groups.id} + ({arrId} + w.live)))
          _ _ _ ?_ ?_).mono ?_
        · refine ⟨by rw [t1, k1, a1], by rw [t2, k2, a2]; simp only [dgsOwn, List.map_nil, List.sum_nil]; abel, Q, [], a3, List.Forall₂.nil, List.Forall₂.nil, fun q hq hq2 => absurd hq hq2⟩
        · intro pre i post st w4 hpre hinv
          obtain ⟨rfl, hi⟩ := range_split hpre
          refine (typeNngStep_spec hs hti t5 hp rs radius hpm t4 hsz ⟨hM _ (Or.inl rfl), hM _ (Or.inr (Or.inl rfl)), hM _ (Or.inr (Or.inr rfl))⟩ hi hinv).mono ?_
          rintro (st' | p) w5 hh
          · rw [← List.range_succ]; exact hh
          · exact hh
        · intro r w4 hr
          have hex : ∃ X : Multiset Nat, w4.live = X + ({tc.sizes.id} + {tc.store.id} + {tc.groups.id} + ({arrId} + w.live)) ∧ ∀ w5 : World, w5.fails = w4.fails →
              w5.live = X + ({arrId} + w.live) → w5.err = w4.err →
              TypeLoopRes cfg A n S (if rs then some radius else none) rs lab c T primary Q mayRefuse w ({arrId} + w.live) r w5 := by
            rcases r with st | p
            · exact ⟨dgsOwn st.dgs + ptrOwn st.seedable, hr.live, fun w5 b1 b2 b3 => ⟨b1.trans hr.fails, b2, hr.rows⟩⟩
            · exact ⟨dgsOwn p.2.dgs + ptrOwn p.2.seedable, hr.live, fun w5 b1 b2 b3 => ⟨b1.trans hr.fails, b2, by rw [b3]; exact hr.err, hr.cause⟩⟩
          obtain ⟨X, hX, hnext⟩ := hex
          rw [wpM_bind]
          refine wpM_freeId (X + {tc.store.id} + {tc.groups.id} + ({arrId} + w.live)) (by rw [hX]; abel) fun w5 l1 l2 l3 => ?_
          rw [wpM_bind]
          refine wpM_freeId (X + {tc.groups.id} + ({arrId} + w.live)) (by rw [l2]; abel) fun w6 m1 m2 m3 => ?_
          rw [wpM_bind]
          refine wpM_freeId (X + ({arrId} + w.live)) (by rw [m2]; abel) fun w7 n1 n2 n3 => ?_
          rw [t5.sum]
          refine (combineTypes_spec hs hp rs radius hpm t4 hpos hS hSn hsz (hnext w7 (by rw [n1, m1, l1]) n2 (by rw [n3, m3, l3]))).mono ?_
          rintro (e | d) w8 hh
          · exact ⟨hh.fails, hh.live, hh.err, Or.inl hh.cause⟩
          · exact hh

end Scc
