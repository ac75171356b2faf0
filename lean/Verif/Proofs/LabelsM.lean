/-
The stages of label assignment with their memory management: `iscc_make_nng_clusters_from_seeds`.
-/
import Verif.Proofs.Labels

set_option linter.unusedSimpArgs false
set_option linter.unusedVariables false

namespace Scc

variable {F : Type} [FloatOps F]

theorem searchLab_lt {ans : Nat → Option (List Nat)} {L : Nat → Option Nat} {n m : Nat} (h : LabelsLt n m L)
    (ha : ∀ q l, ans q = some l → ∀ x ∈ l, x < n) : LabelsLt n m (searchLab ans L) := by
  intro v c hv hc
  unfold searchLab at hc
  cases hL : L v with
  | some c' => simp [hL] at hc; exact hc ▸ h v c' hv hL
  | none =>
    simp only [hL] at hc
    cases hav : ans v with
    | none => simp [hav] at hc
    | some l =>
      cases l with
      | nil => simp [hav] at hc
      | cons x l =>
        simp [hav] at hc
        exact h x c (ha v _ hav x (by simp)) hc

theorem SearchStage.lt {A : Criterion F} {n m : Nat} {um : UnassignedMethod} {base seeds : List Nat} {R : Option F} {P : List Nat} {L L' : Nat → Option Nat}
    (h : SearchStage A n um base seeds R P L L') (hb : ∀ x ∈ base, x < n) (hs : ∀ x ∈ seeds, x < n) (hl : LabelsLt n m L) : LabelsLt n m L' := by
  have key : ∀ {set : List Nat} {ans : Nat → Option (List Nat)}, (∀ x ∈ set, x < n) → Answers A set 1 R (P.filter fun v => (L v).isNone) ans →
      (∀ v, v < n → L' v = searchLab ans L v) → LabelsLt n m L' := by
    intro set ans hset h1 h2 v c hv hc
    rw [h2 v hv] at hc
    exact searchLab_lt hl (fun q l hq x hx => hset x ((h1.row q l hq).2.2 hx)) v c hv hc
  cases um with
  | closestAssigned => obtain ⟨ans, h1, h2⟩ := h; exact key hb h1 h2
  | closestSeed => obtain ⟨ans, h1, h2⟩ := h; exact key hs h1 h2
  | ignore => intro v c hv hc; rw [h v hv] at hc; exact hl v c hv hc
  | anyNeighbor => intro v c hv hc; rw [h v hv] at hc; exact hl v c hv hc
  | unknown => intro v c hv hc; rw [h v hv] at hc; exact hl v c hv hc

/-- Assigned points keep their labels. -/
theorem SearchStage.keep {A : Criterion F} {n : Nat} {um : UnassignedMethod} {base seeds : List Nat} {R : Option F} {P : List Nat} {L L' : Nat → Option Nat}
    (h : SearchStage A n um base seeds R P L L') {v c : Nat} (hv : v < n) (hc : L v = some c) : L' v = some c := by
  cases um with
  | closestAssigned => obtain ⟨ans, h1, h2⟩ := h; rw [h2 v hv]; simp [searchLab, hc]
  | closestSeed => obtain ⟨ans, h1, h2⟩ := h; rw [h2 v hv]; simp [searchLab, hc]
  | ignore => rw [h v hv, hc]
  | anyNeighbor => rw [h v hv, hc]
  | unknown => rw [h v hv, hc]

/-- With nothing left to assign, a stage changes nothing. -/
theorem SearchStage.refl {A : Criterion F} {n : Nat} (um : UnassignedMethod) {base seeds : List Nat} {R : Option F} {P : List Nat} {L L' : Nat → Option Nat}
    (hP : (P.filter fun v => (L v).isNone) = []) (h : ∀ v, v < n → L' v = L v) : SearchStage A n um base seeds R P L L' := by
  have h1 : ∀ set, Answers A set 1 R (P.filter fun v => (L v).isNone) (fun _ => none) := by
    intro set; rw [hP]; exact ⟨by simp, by simp, by simp, by simp⟩
  have h2 : ∀ v, v < n → L' v = searchLab (fun _ => none) L v := by
    intro v hv; rw [h v hv]; unfold searchLab; cases L v <;> rfl
  cases um with
  | closestAssigned => exact ⟨_, h1 _, h2⟩
  | closestSeed => exact ⟨_, h1 _, h2⟩
  | ignore => exact h
  | anyNeighbor => exact h
  | unknown => exact h

theorem SearchStage.congr {A : Criterion F} {n : Nat} {um : UnassignedMethod} {base seeds : List Nat} {R : Option F} {P : List Nat} {L L' M : Nat → Option Nat}
    (h : SearchStage A n um base seeds R P L L') (hm : ∀ v, v < n → M v = L v) (hP : ∀ x ∈ P, x < n) (hb : ∀ x ∈ base, x < n) (hs : ∀ x ∈ seeds, x < n) :
    SearchStage A n um base seeds R P M L' := by
  have hf : (P.filter fun v => (L v).isNone) = P.filter fun v => (M v).isNone := List.filter_congr fun v hv => by rw [hm v (hP v hv)]
  have key : ∀ {set : List Nat} {ans : Nat → Option (List Nat)}, (∀ x ∈ set, x < n) → Answers A set 1 R (P.filter fun v => (L v).isNone) ans →
      (∀ v, v < n → L' v = searchLab ans L v) → ∃ ans, Answers A set 1 R (P.filter fun v => (M v).isNone) ans ∧ ∀ v, v < n → L' v = searchLab ans M v := by
    intro set ans hset h1 h2
    refine ⟨ans, hf ▸ h1, fun v hv => ?_⟩
    rw [h2 v hv]
    unfold searchLab
    rw [hm v hv]
    cases L v with
    | some c => rfl
    | none =>
      dsimp only
      cases hav : ans v with
      | none => simp
      | some l =>
        cases l with
        | nil => simp
        | cons x l => simp [hm x (hset x ((h1.row v _ hav).2.2 (by simp)))]
  cases um with
  | closestAssigned => obtain ⟨ans, h1, h2⟩ := h; exact key hb h1 h2
  | closestSeed => obtain ⟨ans, h1, h2⟩ := h; exact key hs h1 h2
  | ignore => intro v hv; rw [h v hv, hm v hv]
  | anyNeighbor => intro v hv; rw [h v hv, hm v hv]
  | unknown => intro v hv; rw [h v hv, hm v hv]

theorem assignByNng_spec {cfg : Cfg} (hcfg : cfg.Valid) {n : Nat} {nng : Digraph} {rows : Nat → List Nat} {lb : Blk Int} {L : Nat → Option Nat} {w : World}
    (hr : nng.Repr cfg rows) (hn : nng.n = n) (h : LabelsAre cfg n lb.buf L) (hlt : LabelsLt n cfg.clabelMax L) (hl : n ≤ lb.buf.len) (hlb : lb.id ∈ w.live)
    (hng : ∀ i ∈ nng.ids, i ∈ w.live) (hu : w.UncheckedOk) :
    WpM (assignByNng cfg n nng (some lb)) w fun r w' => w'.fails = w.fails ∧ w'.live = w.live ∧ w'.err = w.err ∧ r.1.len = lb.buf.len ∧
      LabelsAre cfg n r.1 (nngLab rows L) ∧ (labelled n L).length + r.2 = (labelled n (nngLab rows L)).length := by
  unfold assignByNng
  rw [wpM_bind]
  refine wpM_allocU hu fun i w1 k1 k2 k3 => ?_
  dsimp only
  have hcsr : Csr n (ptrBuf nng.head) (ptrBuf nng.tail) rows := hn ▸ hr.csr
  rw [wpM_bind, wpM_useK]
  refine ⟨by simp [ptrIds, k2, hlb], ?_⟩
  refine (unassignedFlags_spec hcfg (labels := lb.buf) h hlt (by simp)).mono fun s ⟨a1, a2⟩ => ?_
  rw [wpM_bind, wpM_useK]
  refine ⟨?_, ?_⟩
  · intro j hj
    rw [k2]
    simp only [List.cons_append, List.mem_cons, List.mem_append, ptrIds, List.not_mem_nil, or_false] at hj
    rcases hj with rfl | hj | rfl
    · simp
    · simp [hng j hj]
    · simp [hlb]
  · refine (assignByNngK_spec (labels := lb.buf) hcsr a2 h hl).mono fun r hr' => ?_
    rw [wpM_bind]
    refine wpM_freeId w.live k2 fun w2 l1 l2 l3 => ?_
    rw [wpM_pure]
    exact ⟨l1.trans k1, l2, l3.trans k3, hr'⟩

theorem assignBySearch_spec {cfg : Cfg} (hcfg : cfg.Valid) {spi : Spi F} {n : Nat} {A : Criterion F} {dist : Nat → Nat → F} {mayRefuse : Prop}
    (hs : SpiOk spi n A dist mayRefuse) {o : spi.NN} {set : List Nat} {own : Multiset Nat} {ids : List Nat} {w : World} {lb : Blk Int} {L : Nat → Option Nat}
    {ta : Blk Nat} {T : List Nat} (rs : Bool) (radius : F) (ho : hs.isNN o set own ids) (hown : own ≤ w.live) (hids : ∀ i ∈ ids, i ∈ w.live)
    (hset : ∀ x ∈ set, x < n ∧ (L x).isSome) (hset0 : set ≠ []) (h : LabelsAre cfg n lb.buf L) (hl : n ≤ lb.buf.len) (hlb : lb.id ∈ w.live) (hta : ta.id ∈ w.live)
    (hT : Pre ta.buf T) (hTr : ∀ q ∈ T, q < n ∧ L q = none) (hTn : T.Nodup) (hT0 : 0 < T.length) (hTl : T.length ≤ ta.buf.len) (hu : w.UncheckedOk) :
    WpM (assignBySearch spi o (some lb) T.length ta rs radius) w fun r w' => w'.fails = w.fails ∧ w'.live = w.live ∧ r.2.1.len = lb.buf.len ∧
      r.2.2.len = ta.buf.len ∧
      (r.1 = .ok ∧ w'.err = w.err ∧ (∃ ans, Answers A set 1 (if rs then some radius else none) T ans ∧ LabelsAre cfg n r.2.1 (searchLab ans L)) ∨
       r.1 = .distSearch ∧ w'.err.code = .distSearch ∧ (¬ w.NoFail ∨ mayRefuse) ∧ LabelsAre cfg n r.2.1 L) := by
  unfold assignBySearch
  rw [wpM_bind]
  refine wpM_allocU hu fun i w1 k1 k2 k3 => ?_
  have hwl : ∀ j, j ∈ w.live → j ∈ w1.live := fun j hj => by rw [k2]; exact Multiset.mem_add.2 (Or.inr hj)
  have hta1 := hwl _ hta
  have hi1 : i ∈ w1.live := by rw [k2]; simp
  rw [wpM_bind, touch, wpM_useK]
  refine ⟨by simp [ptrIds, hta1, hi1], ?_⟩
  rw [wp_some, wpM_bind]
  have hsl : 1 ≤ set.length := List.length_pos_iff.2 hset0
  have hcall : NNCall n set w1 ids T.length (some ⟨[ta.id], ta.buf⟩) T 1 rs (if rs then .same else .null) (ptrBuf (some (⟨i, Buf.raw T.length⟩ : Blk Nat))) := by
    refine ⟨hT, rfl, fun j hj => hwl j (hids j hj), by simp [arrIds, hta1], hT0, fun q hq => (hTr q hq).1, Nat.one_pos, hsl, by simp [ptrBuf], ?_, ?_⟩
    · cases rs
      · exact Or.inl rfl
      · right; simpa [OutQ.len] using hTl
    · simp
  refine (hs.nnSearch o set own ids _ _ T 1 rs radius _ _ w1 ho (hown.trans (by rw [k2]; exact Multiset.le_add_left _ _)) hcall).mono ?_
  have hnf : w1.NoFail ↔ w.NoFail := noFail_congr k1
  rintro (_ | r) w2 ⟨c1, c2, c3, c4⟩
  · dsimp only at c4 ⊢
    rw [wpM_bind]
    refine wpM_freePtr w.live (by rw [c3, k2]; rfl) fun w3 l1 l2 l3 => ?_
    rw [wpM_bind]
    refine wpM_mkErr fun w4 m1 m2 m3 => ?_
    rw [wpM_pure]
    exact ⟨by rw [m1, l1, c1, k1], by rw [m2, l2], rfl, rfl, Or.inr ⟨rfl, by rw [m3], by rwa [hnf] at c4, h⟩⟩
  · dsimp only at c4 ⊢
    obtain ⟨d1, d2, res, e1, e2, e3⟩ := c4
    obtain ⟨ans, f1, f2⟩ := answers_fun (e1 ▸ hTn)
    rw [e1] at f2
    have hans : Answers A set 1 (if rs then some radius else none) T ans := by
      have hmem : ∀ q ∈ T, ∃ p ∈ res, p.1 = q ∧ p.2 = ans q := by
        intro q hqm
        rw [← e1] at hqm
        obtain ⟨p, hp, rfl⟩ := List.mem_map.1 hqm
        exact ⟨p, hp, rfl, (f1 p hp).symm⟩
      refine ⟨fun q hqm => ?_, f2, fun hr q hqm => ?_, fun q l hql => ?_⟩
      · obtain ⟨p, hp, rfl, h2⟩ := hmem q hqm
        rw [← h2]; exact (e2 p hp).1
      · obtain ⟨p, hp, rfl, h2⟩ := hmem q hqm
        rw [← h2]; exact (e2 p hp).2.1 hr
      · have hqm : q ∈ T := by by_contra hc; rw [f2 q hc] at hql; simp at hql
        obtain ⟨p, hp, rfl, h2⟩ := hmem q hqm
        exact (e2 p hp).2.2 l (h2.trans hql)
    have hae : answered res = (okOf ans T).map fun q => (q, ansRows ans q) := by rw [answered_eq f1, e1]
    have hnum : r.numOk = (okOf ans T).length := by rw [e3.numOk, hae, List.length_map]
    have hget : ∀ (i q : Nat), (okOf ans T)[i]? = some q → (answered res)[i]? = some (q, ansRows ans q) := by
      intro i q hi; rw [hae, List.getElem?_map, hi]; rfl
    have hokq : Pre (if rs then r.outQ else ta.buf) (okOf ans T) := by
      cases hrs : rs with
      | true =>
        rw [if_pos rfl]
        intro i q hi
        exact e3.queries (by simp [hrs]) i _ (hget i q hi)
      | false =>
        rw [if_neg Bool.false_ne_true]
        have hall : okOf ans T = T := by
          refine List.filter_eq_self.2 fun q hqm => ?_
          exact Option.isSome_iff_ne_none.2 (hans.all (by simp [hrs]) q hqm)
        rw [hall]
        exact hT
    rw [wpM_bind, wpM_useK, c3]
    refine ⟨?_, ?_⟩
    · have := hwl _ hlb
      simp [ptrIds, hta1, hi1, this]
    · rw [hnum]
      refine (copyFromNN_spec (labels := lb.buf) h hl hTr hTn hokq f2 (fun q l hq => ?_) (fun i q hi x hx => ?_)).mono ?_
      · obtain ⟨h1, -, h3⟩ := hans.row q l hq
        obtain ⟨x, rfl⟩ := List.length_eq_one_iff.1 h1
        exact ⟨x, rfl, hset x (h3 (by simp))⟩
      · have h2 := e3.neighbors i _ (hget i q hi) 0 x (by simp [ansRows, hx])
        simpa using h2
      · rintro b ⟨g1, g2⟩
        rw [wpM_bind]
        refine wpM_freePtr w.live (by rw [c3, k2]; rfl) fun w3 l1 l2 l3 => ?_
        rw [wpM_pure]
        refine ⟨by rw [l1, c1, k1], l2, g1, ?_, Or.inl ⟨rfl, by rw [l3, c2, k3], ans, hans, g2⟩⟩
        cases hrs : rs with
        | false => rw [if_neg Bool.false_ne_true]
        | true =>
          rw [if_pos rfl]
          rw [d2 (by simp [hrs])]
          simp [hrs, OutQ.len]

/-- A search object that may be NULL: the points it searches, the blocks it owns and the blocks of the caller it uses. -/
def NNIs {spi : Spi F} {n : Nat} {A : Criterion F} {dist : Nat → Nat → F} {mayRefuse : Prop} (hs : SpiOk spi n A dist mayRefuse) (set : List Nat) (own : Multiset Nat)
    (ids : List Nat) : Option spi.NN → Prop
  | none => own = 0
  | some o => hs.isNN o set own ids

theorem assignUnassigned_spec {cfg : Cfg} (hcfg : cfg.Valid) {spi : Spi F} {n : Nat} {A : Criterion F} {dist : Nat → Nat → F} {mayRefuse : Prop}
    (hs : SpiOk spi n A dist mayRefuse) {oa os : Option spi.NN} {base seeds : List Nat} {owna owns : Multiset Nat} {idsa idss : List Nat} {w : World} {lb : Blk Int}
    {L : Nat → Option Nat} {ta : Blk Nat} {P : List Nat} (um : UnassignedMethod) (rs : Bool) (radius : F)
    (hoa : NNIs hs base owna idsa oa) (hos : NNIs hs seeds owns idss os) (hoa0 : um = .closestAssigned → oa ≠ none) (hos0 : um = .closestSeed → os ≠ none)
    (howna : owna ≤ w.live) (howns : owns ≤ w.live) (hidsa : ∀ i ∈ idsa, i ∈ w.live) (hidss : ∀ i ∈ idss, i ∈ w.live)
    (hbase : ∀ x ∈ base, x < n ∧ (L x).isSome) (hbase0 : base ≠ []) (hseeds : ∀ x ∈ seeds, x < n ∧ (L x).isSome) (hseeds0 : seeds ≠ [])
    (h : LabelsAre cfg n lb.buf L) (hl : n ≤ lb.buf.len) (hlb : lb.id ∈ w.live) (hta : ta.id ∈ w.live)
    (hPn : P.Nodup) (hPr : ∀ p ∈ P, p < n) (hT : Pre ta.buf (P.filter fun v => (L v).isNone)) (hu : w.UncheckedOk) :
    WpM (assignUnassigned spi oa os um (some lb) (P.filter fun v => (L v).isNone).length ta rs radius) w fun r w' => w'.fails = w.fails ∧ w'.live = w.live ∧
      r.2.1.len = lb.buf.len ∧ r.2.2.len = ta.buf.len ∧
      (r.1 = .ok ∧ w'.err = w.err ∧
        (∃ L', LabelsAre cfg n r.2.1 L' ∧ SearchStage A n um base seeds (if rs then some radius else none) P L L') ∨
       r.1 = .distSearch ∧ w'.err.code = .distSearch ∧ (¬ w.NoFail ∨ mayRefuse) ∧ LabelsAre cfg n r.2.1 L) := by
  have hTr : ∀ q ∈ (P.filter fun v => (L v).isNone), q < n ∧ L q = none := by
    intro q hq
    obtain ⟨h1, h2⟩ := List.mem_filter.1 hq
    exact ⟨hPr q h1, by simpa using h2⟩
  have hTn : (P.filter fun v => (L v).isNone).Nodup := hPn.filter _
  unfold assignUnassigned
  by_cases h0 : 0 < (P.filter fun v => (L v).isNone).length
  · rw [if_pos h0]
    by_cases h1 : um = .closestAssigned
    · subst h1
      rw [if_pos rfl, wpM_bind, wpM_useK]
      refine ⟨by simp, ?_⟩
      obtain ⟨o, rfl⟩ := Option.ne_none_iff_exists'.1 (hoa0 rfl)
      rw [wp_some]
      refine (assignBySearch_spec hcfg hs rs radius hoa howna hidsa hbase hbase0 h hl hlb hta hT hTr hTn h0 hT.len hu).mono ?_
      rintro r w' ⟨a1, a2, a3, a4, a5⟩
      refine ⟨a1, a2, a3, a4, a5.imp (fun ⟨b1, b2, ans, b3, b4⟩ => ⟨b1, b2, _, b4, ans, b3, fun v hv => rfl⟩) id⟩
    · rw [if_neg h1]
      by_cases h2 : um = .closestSeed
      · subst h2
        rw [if_pos rfl, wpM_bind, wpM_useK]
        refine ⟨by simp, ?_⟩
        obtain ⟨o, rfl⟩ := Option.ne_none_iff_exists'.1 (hos0 rfl)
        rw [wp_some]
        refine (assignBySearch_spec hcfg hs rs radius hos howns hidss hseeds hseeds0 h hl hlb hta hT hTr hTn h0 hT.len hu).mono ?_
        rintro r w' ⟨a1, a2, a3, a4, a5⟩
        refine ⟨a1, a2, a3, a4, a5.imp (fun ⟨b1, b2, ans, b3, b4⟩ => ⟨b1, b2, _, b4, ans, b3, fun v hv => rfl⟩) id⟩
      · rw [if_neg h2, wpM_pure]
        refine ⟨rfl, rfl, rfl, rfl, Or.inl ⟨rfl, rfl, L, h, ?_⟩⟩
        cases um <;> simp_all [SearchStage]
  · rw [if_neg h0, wpM_pure]
    exact ⟨rfl, rfl, rfl, rfl, Or.inl ⟨rfl, rfl, L, h, SearchStage.refl um (List.length_eq_zero_iff.1 (by omega)) fun v hv => rfl⟩⟩

theorem closeNN_spec {spi : Spi F} {n : Nat} {A : Criterion F} {dist : Nat → Nat → F} {mayRefuse : Prop} (hs : SpiOk spi n A dist mayRefuse) {set : List Nat}
    {own : Multiset Nat} {ids : List Nat} {o : Option spi.NN} (ho : NNIs hs set own ids o) {w : World} (L : Multiset Nat) (hl : w.live = own + L)
    {Q : Unit → World → Prop} (hq : ∀ w', w'.fails = w.fails → w'.live = L → w'.err = w.err → Q () w') : WpM (closeNN spi o) w Q := by
  cases o with
  | none =>
    simp only [NNIs] at ho
    subst ho
    rw [closeNN, wpM_pure]
    exact hq w rfl (by simpa using hl) rfl
  | some o =>
    rw [closeNN, wpM_bind]
    refine (hs.nnClose o set own ids w L ho hl).mono ?_
    rintro b w' ⟨k1, k2, k3, -⟩
    rw [wpM_pure]
    exact hq w' k1 k3 k2

theorem closeAll_spec {spi : Spi F} {n : Nat} {A : Criterion F} {dist : Nat → Nat → F} {mayRefuse : Prop} (hs : SpiOk spi n A dist mayRefuse) {base seeds : List Nat}
    {owna owns : Multiset Nat} {idsa idss : List Nat} {oa os : Option spi.NN} (hoa : NNIs hs base owna idsa oa) (hos : NNIs hs seeds owns idss os) {w : World}
    {son : Option (Blk Nat)} {ta : Nat} (L : Multiset Nat) (hl : w.live = {ta} + owns + owna + ptrOwn son + L)
    {Q : Unit → World → Prop} (hq : ∀ w', w'.fails = w.fails → w'.live = L → w'.err = w.err → Q () w') : WpM (closeAll spi son ta oa os) w Q := by
  unfold closeAll
  rw [wpM_bind]
  refine wpM_freePtr ({ta} + owns + owna + L) (by rw [hl]; abel) fun w1 a1 a2 a3 => ?_
  rw [wpM_bind]
  refine wpM_freeId (owns + owna + L) (by rw [a2]; abel) fun w2 b1 b2 b3 => ?_
  rw [wpM_bind]
  refine closeNN_spec hs hoa (owns + L) (by rw [b2]; abel) fun w3 c1 c2 c3 => ?_
  refine closeNN_spec hs hos L c2 fun w4 d1 d2 d3 => ?_
  exact hq w4 (by rw [d1, c1, b1, a1]) d2 (by rw [d3, c3, b3, a3])

theorem World.UncheckedOk.congr {w w' : World} (h : w'.fails = w.fails) (hu : w.UncheckedOk) : w'.UncheckedOk := fun i => by rw [h]; exact hu i

theorem length_unlabelled_le {n : Nat} {L : Nat → Option Nat} {P : List Nat} (hn : P.Nodup) (hr : ∀ p ∈ P, p < n) :
    (labelled n L).length + (P.filter fun v => (L v).isNone).length ≤ n := by
  rw [← List.length_append]
  have : (labelled n L ++ P.filter fun v => (L v).isNone).Nodup := by
    rw [List.nodup_append]
    refine ⟨nodup_labelled _ _, hn.filter _, fun a ha b hb hab => ?_⟩
    subst hab
    have h1 := (mem_labelled.1 ha).2
    have h2 := (List.mem_filter.1 hb).2
    cases hL : L a <;> simp_all
  have h2 := (List.subperm_of_subset this (l₂ := List.range n) fun x hx => by
    rcases List.mem_append.1 hx with hx | hx
    · exact List.mem_range.2 (mem_labelled.1 hx).1
    · exact List.mem_range.2 (hr x (List.mem_filter.1 hx).1)).length_le
  simpa using h2

/-- The primary points: the given array in ascending order, or (NULL) all points. -/
structure PrimaryIs (n lenPrimary : Nat) (primary : Option (Buf Nat)) (P : List Nat) : Prop where
  holds : ArrHolds (primary.map fun b => ⟨[], b⟩) P
  len : P.length = if primary.isSome then lenPrimary else n
  sorted : P.Pairwise (· < ·)
  range : ∀ p ∈ P, p < n

theorem searchRounds_spec {cfg : Cfg} (hcfg : cfg.Valid) {spi : Spi F} {n : Nat} {A : Criterion F} {dist : Nat → Nat → F} {mayRefuse : Prop}
    (hs : SpiOk spi n A dist mayRefuse) {oa os : Option spi.NN} {base seeds : List Nat} {owna owns : Multiset Nat} {idsa idss : List Nat} {w : World} {lb : Blk Int}
    {L : Nat → Option Nat} {ta : Blk Nat} {son : Option (Blk Nat)} {P : List Nat} {lenPrimary : Nat} {primary : Option (Buf Nat)}
    (um : UnassignedMethod) (rs : Bool) (radius : F) (um2 : UnassignedMethod) (rs2 : Bool) (radius2 : F) (M : Multiset Nat)
    (hlive : w.live = {ta.id} + owns + owna + ptrOwn son + M)
    (hoa : NNIs hs base owna idsa oa) (hos : NNIs hs seeds owns idss os)
    (hoa0 : um = .closestAssigned ∨ um2 = .closestAssigned → oa ≠ none) (hos0 : um = .closestSeed ∨ um2 = .closestSeed → os ≠ none)
    (hidsa : ∀ i ∈ idsa, i ∈ w.live) (hidss : ∀ i ∈ idss, i ∈ w.live)
    (hbase : ∀ x ∈ base, x < n ∧ (L x).isSome) (hbase0 : base ≠ []) (hseeds : ∀ x ∈ seeds, x < n ∧ (L x).isSome) (hseeds0 : seeds ≠ [])
    (h : LabelsAre cfg n lb.buf L) (hlt : LabelsLt n cfg.clabelMax L) (hl : n ≤ lb.buf.len) (hlb : lb.id ∈ M)
    (hP : PrimaryIs n lenPrimary primary P) (hta : ta.buf.len = n - (labelled n L).length + 1) (hu : w.UncheckedOk) :
    WpM (searchRounds cfg spi n (some lb) son oa os ta um rs radius lenPrimary primary um2 rs2 radius2) w fun r w' => w'.fails = w.fails ∧ w'.live = M ∧
      ∃ l, r.2 = some ⟨lb.id, l⟩ ∧ l.len = lb.buf.len ∧
      (r.1 = .ok ∧ (∃ L3 L', LabelsAre cfg n l L' ∧ SearchStage A n um base seeds (if rs then some radius else none) P L L3 ∧
          (SearchStage A n um2 base seeds (if rs2 then some radius2 else none) (List.range n) L3 L' ∨ (¬ w.NoFail ∨ mayRefuse) ∧ ∀ v, v < n → L' v = L3 v)) ∨
       r.1 = .distSearch ∧ w'.err.code = .distSearch ∧ (¬ w.NoFail ∨ mayRefuse) ∧ LabelsAre cfg n l L) := by
  have hPn : P.Nodup := hP.sorted.imp fun h => Nat.ne_of_lt h
  have hPlen := length_unlabelled_le (L := L) hPn hP.range
  have htal : ta.id ∈ w.live := by rw [hlive]; simp
  have hlbl : lb.id ∈ w.live := by rw [hlive]; simp [hlb]
  have howna : owna ≤ w.live := by
    rw [hlive, show ({ta.id} + owns + owna + ptrOwn son + M : Multiset Nat) = owna + ({ta.id} + owns + ptrOwn son + M) by abel]; exact Multiset.le_add_right _ _
  have howns : owns ≤ w.live := by
    rw [hlive, show ({ta.id} + owns + owna + ptrOwn son + M : Multiset Nat) = owns + ({ta.id} + owna + ptrOwn son + M) by abel]; exact Multiset.le_add_right _ _
  unfold searchRounds
  rw [← hP.len, wpM_bind, wpM_useK]
  refine ⟨by simp [ptrIds, htal, hlbl], ?_⟩
  refine (listUnassigned_spec hcfg (labels := lb.buf) h hlt hP.holds hP.range (by omega)).mono ?_
  rintro ⟨c, num⟩ ⟨a1, a2, a3⟩
  dsimp only at a1 a2 a3 ⊢
  subst a2
  rw [wpM_bind]
  refine (assignUnassigned_spec hcfg hs (ta := ⟨ta.id, c⟩) um rs radius hoa hos (fun h => hoa0 (Or.inl h)) (fun h => hos0 (Or.inl h)) howna howns hidsa hidss hbase hbase0 hseeds
    hseeds0 h hl hlbl htal hPn hP.range a3 hu).mono ?_
  rintro ⟨ec, l, c2⟩ w1 ⟨b1, b2, b3, b4, b5⟩
  dsimp only at b1 b2 b3 b4 b5 ⊢
  rcases b5 with ⟨rfl, b6, L3, b7, b8⟩ | ⟨rfl, b6, b7, b8⟩
  · rw [if_neg (by simp), wpM_bind]
    have hlt3 : LabelsLt n cfg.clabelMax L3 := b8.lt (fun x hx => (hbase x hx).1) (fun x hx => (hseeds x hx).1) hlt
    have hkeep : ∀ x, x < n → (L x).isSome → (L3 x).isSome := by
      intro x hx hxs
      obtain ⟨c, hc⟩ := Option.isSome_iff_exists.1 hxs
      rw [b8.keep hx hc]; rfl
    have hlab3 : (labelled n L).length ≤ (labelled n L3).length := by
      unfold labelled
      rw [← List.countP_eq_length_filter, ← List.countP_eq_length_filter]
      refine List.countP_mono_left fun x hx hxs => ?_
      exact hkeep x (List.mem_range.1 hx) hxs
    have hroom := length_unlabelled_le (n := n) (L := L3) (P := List.range n) List.nodup_range (fun p hp => List.mem_range.1 hp)
    have second : WpM (secondRound cfg spi oa os um2 n (ptrSet (some lb) l) ⟨ta.id, c2⟩ rs2 radius2) w1 fun l' w2 => w2.fails = w1.fails ∧ w2.live = w1.live ∧
        l'.len = l.len ∧ ∃ L', LabelsAre cfg n l' L' ∧ (SearchStage A n um2 base seeds (if rs2 then some radius2 else none) (List.range n) L3 L' ∨
          (¬ w1.NoFail ∨ mayRefuse) ∧ ∀ v, v < n → L' v = L3 v) := by
      unfold secondRound
      by_cases hig : um2 = .ignore
      · rw [if_neg (by simp [hig]), wpM_pure]
        exact ⟨rfl, rfl, rfl, L3, b7, Or.inl (by subst hig; intro v hv; rfl)⟩
      · rw [if_pos hig, wpM_bind, wpM_useK, b2]
        refine ⟨by simp [ptrSet, ptrIds, htal, hlbl], ?_⟩
        have hlu := listUnassigned_spec (pts := none) (P := List.range n) (ta := c2) hcfg (labels := l) b7 hlt3 (arrHolds_range n) (fun p hp => List.mem_range.1 hp) (by omega)
        rw [List.length_range] at hlu
        refine hlu.mono ?_
        rintro ⟨c3, num⟩ ⟨d1, d2, d3⟩
        dsimp only at d1 d2 d3 ⊢
        subst d2
        rw [wpM_bind]
        refine (assignUnassigned_spec hcfg hs (lb := ⟨lb.id, l⟩) (ta := ⟨ta.id, c3⟩) (w := w1) um2 rs2 radius2 hoa hos (fun h => hoa0 (Or.inr h)) (fun h => hos0 (Or.inr h))
          (by rw [b2]; exact howna) (by rw [b2]; exact howns) (by rw [b2]; exact hidsa) (by rw [b2]; exact hidss)
          (fun x hx => ⟨(hbase x hx).1, hkeep x (hbase x hx).1 (hbase x hx).2⟩) hbase0 (fun x hx => ⟨(hseeds x hx).1, hkeep x (hseeds x hx).1 (hseeds x hx).2⟩) hseeds0
          b7 (b3 ▸ hl) (by rw [b2]; exact hlbl) (by rw [b2]; exact htal) List.nodup_range (fun p hp => List.mem_range.1 hp) d3 (hu.congr b1)).mono ?_
        rintro ⟨ec2, l2, c4⟩ w2 ⟨e1, e2, e3, e4, e5⟩
        dsimp only at e1 e2 e3 e4 e5 ⊢
        rw [wpM_pure]
        refine ⟨e1, e2.trans b2, e3, ?_⟩
        rcases e5 with ⟨-, -, L', f1, f2⟩ | ⟨-, -, f1, f2⟩
        · exact ⟨L', f1, Or.inl f2⟩
        · exact ⟨L3, f2, Or.inr ⟨f1, fun v hv => rfl⟩⟩
    refine second.mono ?_
    rintro l' w2 ⟨e1, e2, e3, L', e4, e5⟩
    rw [wpM_bind]
    refine closeAll_spec hs hoa hos M (by rw [e2, b2, hlive]) fun w3 k1 k2 k3 => ?_
    rw [wpM_pure]
    refine ⟨by rw [k1, e1, b1], k2, l', rfl, e3.trans b3, Or.inl ⟨rfl, L3, L', e4, b8, e5.imp id fun ⟨g1, g2⟩ => ⟨?_, g2⟩⟩⟩
    rwa [noFail_congr b1] at g1
  · rw [if_pos (by simp), wpM_bind]
    refine closeAll_spec hs hoa hos M (by rw [b2, hlive]) fun w3 k1 k2 k3 => ?_
    rw [wpM_pure]
    exact ⟨by rw [k1, b1], k2, l, rfl, b3, Or.inr ⟨rfl, by rw [k3, b6], b7, b8⟩⟩

theorem initNN_spec {spi : Spi F} {n : Nat} {A : Criterion F} {dist : Nat → Nat → F} {mayRefuse : Prop} (hs : SpiOk spi n A dist mayRefuse) {need : Bool} {set : List Nat}
    {arr : Option (Blk Nat)} {line : Nat} {w : World} (h : need = true → ∃ b, arr = some b ∧ Pre b.buf set ∧ b.id ∈ w.live) (hset0 : set ≠ []) (hn : set.Nodup)
    (hr : ∀ x ∈ set, x < n) :
    WpM (initNN spi need set.length arr line) w fun r w' => w'.fails = w.fails ∧ match r with
      | .error e => w'.live = w.live ∧ e = .distSearch ∧ w'.err.code = .distSearch ∧ (¬ w.NoFail ∨ mayRefuse)
      | .ok o => w'.err = w.err ∧ (need = true → o ≠ none) ∧ ∃ own ids, NNIs hs set own ids o ∧ w'.live = own + w.live ∧ ∀ i ∈ ids, i ∈ w.live := by
  unfold initNN
  cases need
  · rw [if_neg Bool.false_ne_true, wpM_pure]
    exact ⟨rfl, rfl, by simp, 0, [], rfl, by simp, by simp⟩
  · obtain ⟨b, rfl, h1, h2⟩ := h rfl
    rw [if_pos rfl, wpM_bind]
    refine (hs.nnInit set.length (some ⟨[b.id], b.buf⟩) set w h1 rfl (List.length_pos_iff.2 hset0) hn hr (by simpa [arrIds] using h2)).mono ?_
    rintro (_ | o) w1 ⟨a1, a2, a3⟩
    · dsimp only
      exact wpM_fail fun w2 l1 l2 l3 => ⟨l1.trans a1, l2.trans a3.1, rfl, by rw [l3], a3.2⟩
    · dsimp only
      rw [wpM_pure]
      obtain ⟨own, c1, c2⟩ := a3
      exact ⟨a1, a2, by simp, own, _, c1, c2, by simpa [arrIds] using h2⟩

theorem assignRemaining_spec {cfg : Cfg} (hcfg : cfg.Valid) {spi : Spi F} {n : Nat} {A : Criterion F} {dist : Nat → Nat → F} {mayRefuse : Prop}
    (hs : SpiOk spi n A dist mayRefuse) {base seeds : List Nat} {w : World} {lb : Blk Int} {L : Nat → Option Nat} {son : Option (Blk Nat)} {sr : SeedResult}
    {P : List Nat} {lenPrimary total : Nat} {primary : Option (Buf Nat)}
    (um : UnassignedMethod) (rs : Bool) (radius : F) (um2 : UnassignedMethod) (rs2 : Bool) (radius2 : F) (M : Multiset Nat)
    (hlive : w.live = ptrOwn son + M) (htot : total = (labelled n L).length) (hnsz : n < cfg.sizeMax)
    (hson : um = .closestAssigned ∨ um2 = .closestAssigned → ∃ b, son = some b ∧ Pre b.buf base)
    (hsr : sr.Holds seeds) (hsrl : ∀ i ∈ ptrIds sr.seeds, i ∈ M)
    (hbase : ∀ x ∈ base, x < n ∧ (L x).isSome) (hbase0 : base ≠ []) (hbasen : base.Nodup)
    (hseeds : ∀ x ∈ seeds, x < n ∧ (L x).isSome) (hseeds0 : seeds ≠ []) (hseedsn : seeds.Nodup)
    (h : LabelsAre cfg n lb.buf L) (hlt : LabelsLt n cfg.clabelMax L) (hl : n ≤ lb.buf.len) (hlb : lb.id ∈ M)
    (hP : PrimaryIs n lenPrimary primary P) (hu : w.UncheckedOk) :
    WpM (assignRemaining cfg spi n total base.length (some lb) son sr um rs radius lenPrimary primary um2 rs2 radius2) w fun r w' => w'.fails = w.fails ∧ w'.live = M ∧
      ∃ l, r.2 = some ⟨lb.id, l⟩ ∧ l.len = lb.buf.len ∧
      (r.1 = .ok ∧ (∃ L3 L', LabelsAre cfg n l L' ∧ SearchStage A n um base seeds (if rs then some radius else none) P L L3 ∧
          (SearchStage A n um2 base seeds (if rs2 then some radius2 else none) (List.range n) L3 L' ∨ (¬ w.NoFail ∨ mayRefuse) ∧ ∀ v, v < n → L' v = L3 v)) ∨
       w'.err.code = r.1 ∧ SysCause w False mayRefuse r.1 ∧ LabelsAre cfg n l L) := by
  have hlen := length_labelled_le n L
  unfold assignRemaining
  rw [wpM_bind]
  refine (initNN_spec hs (set := base) (arr := son) (line := 514) (w := w) (fun hd => ?_) hbase0 hbasen fun x hx => (hbase x hx).1).mono ?_
  · obtain ⟨b, rfl, h2⟩ := hson (of_decide_eq_true hd)
    exact ⟨b, rfl, h2, by rw [hlive]; simp⟩
  rintro (e | oa) w1 ⟨a1, a2⟩
  · obtain ⟨a2, rfl, a3, a4⟩ := a2
    dsimp only
    rw [wpM_bind]
    refine wpM_freePtr M (by rw [a2, hlive]) fun w2 k1 k2 k3 => ?_
    rw [wpM_pure]
    exact ⟨k1.trans a1, k2, lb.buf, rfl, rfl, Or.inr ⟨by rw [k3, a3], Or.inr (Or.inr ⟨rfl, a4⟩), h⟩⟩
  · obtain ⟨a2, a3, owna, idsa, a4, a5, a6⟩ := a2
    dsimp only
    have hwl1 : ∀ i, i ∈ w.live → i ∈ w1.live := fun i hi => by rw [a5]; exact Multiset.mem_add.2 (Or.inr hi)
    have hML : ∀ i, i ∈ M → i ∈ w.live := fun i hi => by rw [hlive]; exact Multiset.mem_add.2 (Or.inr hi)
    rw [hsr.count, wpM_bind]
    refine (initNN_spec hs (set := seeds) (arr := sr.seeds) (line := 529) (w := w1) (fun hd => ?_) hseeds0 hseedsn fun x hx => (hseeds x hx).1).mono ?_
    · obtain ⟨b, h1, -, h2⟩ := hsr.block
      exact ⟨b, h1, h2, hwl1 _ (hML _ (hsrl _ (by rw [h1]; simp [ptrIds])))⟩
    rintro (e | os) w2 ⟨b1, b2⟩
    · obtain ⟨b2, rfl, b3, b4⟩ := b2
      dsimp only
      rw [wpM_bind]
      refine wpM_freePtr (owna + M) (by rw [b2, a5, hlive]; abel) fun w3 k1 k2 k3 => ?_
      rw [wpM_bind]
      refine closeNN_spec hs a4 M k2 fun w4 l1 l2 l3 => ?_
      rw [wpM_pure]
      refine ⟨by rw [l1, k1, b1, a1], l2, lb.buf, rfl, rfl, Or.inr ⟨by rw [l3, k3, b3], Or.inr (Or.inr ⟨rfl, ?_⟩), h⟩⟩
      rwa [noFail_congr a1] at b4
    · obtain ⟨b2, b3, owns, idss, b4, b5, b6⟩ := b2
      dsimp only
      have hmod : (n + (cfg.sizeMax + 1) - total + 1) % (cfg.sizeMax + 1) = n - (labelled n L).length + 1 := by
        rw [htot, show n + (cfg.sizeMax + 1) - (labelled n L).length + 1 = (n - (labelled n L).length + 1) + (cfg.sizeMax + 1) by omega, Nat.add_mod_right,
          Nat.mod_eq_of_lt (by omega)]
      rw [hmod, wpM_bind]
      have hf2 : w2.fails = w.fails := b1.trans a1
      refine wpM_alloc (fun w3 hf k1 k2 k3 => ?_) (fun i w3 k1 k2 k3 => ?_)
      · dsimp only
        rw [wpM_bind]
        refine wpM_freePtr (owns + owna + M) (by rw [k2, b5, a5, hlive]; abel) fun w4 l1 l2 l3 => ?_
        rw [wpM_bind]
        refine closeNN_spec hs a4 (owns + M) (by rw [l2]; abel) fun w5 m1 m2 m3 => ?_
        rw [wpM_bind]
        refine closeNN_spec hs b4 M m2 fun w6 p1 p2 p3 => ?_
        rw [wpM_bind]
        refine wpM_mkErr fun w7 q1 q2 q3 => ?_
        rw [wpM_pure]
        refine ⟨by rw [q1, p1, m1, l1, k1, hf2], by rw [q2, p2], lb.buf, rfl, rfl, Or.inr ⟨by rw [q3], Or.inr (Or.inl ⟨rfl, ?_⟩), h⟩⟩
        rwa [noFail_congr hf2] at hf
      · dsimp only
        have hf3 : w3.fails = w.fails := k1.trans hf2
        have hwl3 : ∀ i, i ∈ w1.live → i ∈ w3.live := fun i hi => by rw [k2, b5]; simp [hi]
        refine (searchRounds_spec hcfg hs (ta := ⟨i, _⟩) (base := base) (seeds := seeds) um rs radius um2 rs2 radius2 M (by rw [k2, b5, a5, hlive]; abel) a4 b4
          (fun hh => a3 (decide_eq_true hh)) (fun hh => b3 (decide_eq_true hh)) (fun j hj => hwl3 j (hwl1 j (a6 j hj))) (fun j hj => hwl3 j (b6 j hj))
          hbase hbase0 hseeds hseeds0 h hlt hl hlb hP (by simp) (hu.congr hf3)).mono ?_
        rintro ⟨ec, lab⟩ w4 ⟨c1, c2, l, c3, c4, c5⟩
        refine ⟨c1.trans hf3, c2, l, c3, c4, ?_⟩
        rw [noFail_congr hf3] at c5
        exact c5.imp id fun ⟨d1, d2, d3, d4⟩ => by
          dsimp only at d1 d2 d3 d4 ⊢
          subst d1
          exact ⟨d2, Or.inr (Or.inr ⟨rfl, d3⟩), d4⟩

theorem initAssigned_spec {cfg : Cfg} (hcfg : cfg.Valid) {n : Nat} {lb : Blk Int} {L : Nat → Option Nat} {need : Bool} {w : World} (h : LabelsAre cfg n lb.buf L)
    (hlt : LabelsLt n cfg.clabelMax L) (hlb : lb.id ∈ w.live) :
    WpM (initAssigned cfg n (labelled n L).length need (some lb)) w fun r w' => w'.fails = w.fails ∧ match r with
      | .error e => w'.live = w.live ∧ e = .noMemory ∧ w'.err.code = .noMemory ∧ ¬ w.NoFail ∧ need = true
      | .ok son => w'.live = ptrOwn son + w.live ∧ (need = true → ∃ b, son = some b ∧ Pre b.buf (labelled n L)) := by
  unfold initAssigned
  cases need
  · rw [if_neg Bool.false_ne_true, wpM_pure]
    exact ⟨rfl, by simp, by simp⟩
  · rw [if_pos rfl, wpM_bind]
    refine wpM_alloc (fun w1 hf k1 k2 k3 => ?_) (fun i w1 k1 k2 k3 => ?_)
    · exact wpM_fail fun w2 l1 l2 l3 => ⟨l1.trans k1, l2.trans k2, rfl, by rw [l3], hf, rfl⟩
    · dsimp only
      rw [wpM_bind, wpM_useK]
      refine ⟨by simp [ptrIds, k2, hlb], ?_⟩
      refine (listAssigned_spec hcfg (labels := lb.buf) h hlt (by simp)).mono fun c ⟨c1, c2⟩ => ?_
      rw [wpM_pure]
      exact ⟨k1, k2, fun _ => ⟨_, rfl, c2⟩⟩

theorem nngLab_of_some {rows : Nat → List Nat} {L : Nat → Option Nat} {v : Nat} (h : (L v).isSome) : nngLab rows L v = L v := by
  obtain ⟨c, hc⟩ := Option.isSome_iff_exists.1 h
  simp [nngLab, hc]

theorem SearchStage.afterNng {A : Criterion F} {n : Nat} {um : UnassignedMethod} {base seeds : List Nat} {R : Option F} {P : List Nat} {L L' : Nat → Option Nat}
    (h : SearchStage A n (Scc.afterNng um) base seeds R P L L') : SearchStage A n um base seeds R P L L' := by
  cases um <;> exact h

theorem filter_isNone_nil {n : Nat} {L : Nat → Option Nat} {P : List Nat} (h : ∀ v, v < n → (L v).isSome) (hP : ∀ p ∈ P, p < n) : (P.filter fun v => (L v).isNone) = [] := by
  rw [List.filter_eq_nil_iff]
  intro v hv
  have := h v (hP v hv)
  cases hL : L v <;> simp_all

/-- What `iscc_make_nng_clusters_from_seeds` delivers. -/
structure ClustersPost (cfg : Cfg) (A : Criterion F) (w : World) (n : Nat) (rows : Nat → List Nat) (seeds : List Nat) (ordered : Bool) (um : UnassignedMethod) (R : Option F)
    (P : List Nat) (um2 : UnassignedMethod) (R2 : Option F) (mayRefuse : Prop) (M : Multiset Nat) (cl : Clustering) (lb : Blk Int)
    (r : ErrorCode × Clustering × Digraph) (w' : World) : Prop where
  fails : w'.fails = w.fails
  live : w'.live = r.2.2.own + M
  labels : ∃ l, r.2.1 = { cl with numClusters := seeds.length, label := some ⟨lb.id, l⟩ } ∧ l.len = lb.buf.len ∧
    (r.1 = .ok ∧ (∃ L2 L3 L, LabelsAre cfg n l L ∧ Staged A n rows seeds ordered um R P um2 R2 (¬ w.NoFail ∨ mayRefuse) L2 L3 L) ∨
     w'.err.code = r.1 ∧ SysCause w False mayRefuse r.1 ∧ (um2 = .ignore → um ≠ .ignore ∧ um ≠ .anyNeighbor) ∧ ∃ L, LabelsAre cfg n l L ∧ LabelsLt n seeds.length L)

theorem makeClusters_spec {cfg : Cfg} (hcfg : cfg.Valid) {spi : Spi F} {n : Nat} {A : Criterion F} {dist : Nat → Nat → F} {mayRefuse : Prop}
    (hs : SpiOk spi n A dist mayRefuse) {cl : Clustering} {lb : Blk Int} {sr : SeedResult} {nng : Digraph} {rows : Nat → List Nat} {seeds : List Nat} {w : World}
    {P : List Nat} {lenPrimary : Nat} {primary : Option (Buf Nat)} (ordered : Bool)
    (um : UnassignedMethod) (rs : Bool) (radius : F) (um2 : UnassignedMethod) (rs2 : Bool) (radius2 : F) (M : Multiset Nat)
    (hcl : cl.n = n) (hlab : cl.label = some lb) (hl : n ≤ lb.buf.len) (hlb : lb.id ∈ M)
    (hsr : sr.Holds seeds) (hsrl : ∀ i ∈ ptrIds sr.seeds, i ∈ M) (hsok : SeedsOk n rows seeds) (hseeds0 : seeds ≠ []) (hcap : seeds.length ≤ cfg.clabelMax)
    (hr : nng.Repr cfg rows) (hn : nng.n = n) (hnd : ∀ v, v < n → (rows v).Nodup ∧ v ∉ rows v) (hlive : w.live = nng.own + M)
    (hP : PrimaryIs n lenPrimary primary P) (hnsz : n < cfg.sizeMax) (hu : w.UncheckedOk) :
    WpM (makeClusters cfg spi cl sr nng ordered um rs radius lenPrimary primary um2 rs2 radius2) w
      (ClustersPost cfg A w n rows seeds ordered um (if rs then some radius else none) P um2 (if rs2 then some radius2 else none) mayRefuse M cl lb) := by
  subst hcl
  have hcsr : Csr cl.n (ptrBuf nng.head) (ptrBuf nng.tail) rows := hn ▸ hr.csr
  have hML : ∀ i, i ∈ M → i ∈ w.live := fun i hi => by rw [hlive]; exact Multiset.mem_add.2 (Or.inr hi)
  have hngl : ∀ i ∈ nng.ids, i ∈ w.live := fun i hi => by rw [hlive]; exact Multiset.mem_add.2 (Or.inl (mem_ids_iff_own.1 hi))
  obtain ⟨sb, hsb1, -, hsb2⟩ := hsr.block
  have hseedLab : ∀ s ∈ seeds, (seedLab rows seeds s).isSome := by
    intro s hs'
    obtain ⟨i, hi⟩ := List.mem_iff_getElem?.1 hs'
    rw [hsok.seedLab hi (by simp [closedNbr])]; rfl
  have hlt1 : LabelsLt cl.n seeds.length (seedLab rows seeds) := fun v c _ hc => seedLab_lt hc
  have hlt2 : LabelsLt cl.n seeds.length (nngLab rows (seedLab rows seeds)) := nngLab_lt (fun v hv a ha => hcsr.range v hv a ha) hlt1
  have hup : ∀ {L : Nat → Option Nat}, LabelsLt cl.n seeds.length L → LabelsLt cl.n cfg.clabelMax L := fun h v c hv hc => (h v c hv hc).trans_le hcap
  have hbase : ∀ x ∈ labelled cl.n (seedLab rows seeds), x < cl.n ∧ (seedLab rows seeds x).isSome := fun x hx => mem_labelled.1 hx
  have hbase0 : labelled cl.n (seedLab rows seeds) ≠ [] := by
    obtain ⟨s, hs'⟩ := List.exists_mem_of_ne_nil seeds hseeds0
    exact List.ne_nil_of_mem (mem_labelled.2 ⟨hsok.range s hs', hseedLab s hs'⟩)
  unfold makeClusters
  rw [wpM_bind, wpM_useK]
  refine ⟨?_, ?_⟩
  · intro i hi
    rw [hlab] at hi
    simp only [List.mem_append, ptrIds, List.mem_singleton] at hi
    rcases hi with (hi | hi) | rfl
    · exact hML i (hsrl i hi)
    · exact hngl i hi
    · exact hML _ hlb
  rw [hlab, hsr.count, hsb1]
  refine (assignSeeds_spec hcfg (labels := lb.buf) (sb := sb.buf) hcsr hsb2 hsok hnd hcap hl).mono ?_
  rintro ⟨l, num⟩ ⟨a1, a2, a3⟩
  dsimp only at a1 a2 a3 ⊢
  subst a3
  have hl1 : cl.n ≤ l.len := by omega
  generalize hL1 : seedLab rows seeds = L1 at *
  by_cases hdone : assignDone cl.n (labelled cl.n L1).length um um2 = true
  · rw [hdone, if_pos rfl, wpM_pure]
    refine ⟨rfl, hlive, l, by simp [ptrSet], a1, Or.inl ⟨rfl, L1, L1, L1, a2, ?_⟩⟩
    rw [assignDone, decide_eq_true_eq] at hdone
    subst hL1
    rcases hdone with hall | ⟨rfl, rfl⟩
    · have hall' := labelled_full hall
      refine ⟨fun v hv => ?_, SearchStage.refl _ (filter_isNone_nil hall' hP.range) fun v hv => rfl,
        Or.inl (SearchStage.refl _ (filter_isNone_nil hall' fun p hp => List.mem_range.1 hp) fun v hv => rfl)⟩
      split
      · rw [nngLab_of_some (hall' v hv)]
      · rfl
    · refine ⟨fun v hv => ?_, fun v hv => rfl, Or.inl fun v hv => rfl⟩
      rw [if_neg (by simp [UsesNng])]
  · rw [if_neg hdone, wpM_bind]
    have hset : ptrSet (some lb) l = some ⟨lb.id, l⟩ := rfl
    rw [hset]
    refine (initAssigned_spec hcfg (lb := ⟨lb.id, l⟩) a2 (hup hlt1) (hML _ hlb)).mono ?_
    rintro (e | son) w1 ⟨b1, b2⟩
    · obtain ⟨b2, rfl, b3, b4, b5⟩ := b2
      dsimp only
      rw [wpM_pure]
      refine ⟨b1, by rw [b2, hlive], l, rfl, a1, Or.inr ⟨b3, Or.inr (Or.inl ⟨rfl, b4⟩), ?_, L1, a2, hlt1⟩⟩
      rintro rfl
      rcases of_decide_eq_true b5 with h | h
      · rw [h]; exact ⟨nofun, nofun⟩
      · cases h
    · obtain ⟨b2, b3⟩ := b2
      dsimp only
      have hwl : ∀ i, i ∈ w.live → i ∈ w1.live := fun i hi => by rw [b2]; exact Multiset.mem_add.2 (Or.inr hi)
      have hson : um = .closestAssigned ∨ um2 = .closestAssigned → ∃ b, son = some b ∧ Pre b.buf (labelled cl.n L1) := fun hh => b3 (decide_eq_true hh)
      by_cases hnng : um = .anyNeighbor ∨ ordered = true ∧ um = .closestAssigned
      · rw [if_pos hnng, wpM_bind]
        refine (assignByNng_spec hcfg (lb := ⟨lb.id, l⟩) hr hn a2 (hup hlt1) hl1 (hwl _ (hML _ hlb)) (fun i hi => hwl i (hngl i hi)) (hu.congr b1)).mono ?_
        rintro ⟨l2, num'⟩ w2 ⟨c1, c2, c3, c4, c5, c6⟩
        dsimp only at c1 c2 c3 c4 c5 c6 ⊢
        rw [c6]
        have hl2 : cl.n ≤ l2.len := by omega
        have hf2 : w2.fails = w.fails := c1.trans b1
        by_cases hdone2 : assignDone cl.n (labelled cl.n (nngLab rows L1)).length (afterNng um) um2 = true
        · rw [hdone2, if_pos rfl, wpM_bind]
          refine wpM_freePtr w.live (by rw [c2, b2]) fun w3 k1 k2 k3 => ?_
          rw [wpM_pure]
          refine ⟨k1.trans hf2, by rw [k2, hlive], l2, rfl, c4.trans a1, Or.inl ⟨rfl, nngLab rows L1, nngLab rows L1, nngLab rows L1, c5, ?_⟩⟩
          rw [assignDone, decide_eq_true_eq] at hdone2
          subst hL1
          refine ⟨fun v hv => by rw [if_pos (show UsesNng ordered um from hnng)], ?_, Or.inl ?_⟩
          · rcases hdone2 with hall | ⟨h1, -⟩
            · exact SearchStage.refl _ (filter_isNone_nil (labelled_full hall) hP.range) fun v hv => rfl
            · refine SearchStage.afterNng ?_
              rw [h1]
              exact fun v hv => rfl
          · rcases hdone2 with hall | ⟨-, rfl⟩
            · exact SearchStage.refl _ (filter_isNone_nil (labelled_full hall) fun p hp => List.mem_range.1 hp) fun v hv => rfl
            · exact fun v hv => rfl
        · rw [if_neg hdone2, wpM_bind]
          refine freeDigraph_spec (ptrOwn son + M) (by rw [c2, b2, hlive]; abel) fun w3 k1 k2 k3 => ?_
          rw [wpM_bind]
          have hsome : ∀ x, (L1 x).isSome → (nngLab rows L1 x).isSome := fun x hx => nngLab_isSome.2 (Or.inl hx)
          have hson' : afterNng um = .closestAssigned ∨ um2 = .closestAssigned → ∃ b, son = some b ∧ Pre b.buf (labelled cl.n L1) := by
            rintro (hh | hh)
            · refine hson (Or.inl ?_)
              unfold afterNng at hh
              split at hh
              · simp at hh
              · exact hh
            · exact hson (Or.inr hh)
          refine (assignRemaining_spec hcfg hs (lb := ⟨lb.id, l2⟩) (base := labelled cl.n L1) (seeds := seeds) (son := son) (sr := sr) (w := w3) (afterNng um) rs radius um2 rs2 radius2 M k2 rfl hnsz
            hson' hsr hsrl (fun x hx => ⟨(hbase x hx).1, hsome x (hbase x hx).2⟩) hbase0 (nodup_labelled _ _)
            (fun x hx => ⟨hsok.range x hx, hsome x (hseedLab x hx)⟩) hseeds0 hsok.nodup c5 (hup hlt2) hl2 hlb hP (hu.congr (k1.trans hf2))).mono ?_
          rintro ⟨ec, lab⟩ w4 ⟨d1, d2, l3, d3, d4, d5⟩
          dsimp only at d1 d2 d3 d4 d5 ⊢
          rw [wpM_pure]
          have hf4 : w4.fails = w.fails := d1.trans (k1.trans hf2)
          rw [noFail_congr (k1.trans hf2)] at d5
          refine ⟨hf4, by simpa [Digraph.own, Digraph.null] using d2, l3, by dsimp only; rw [d3], d4.trans (c4.trans a1), ?_⟩
          rcases d5 with ⟨rfl, L3, L, e1, e2, e3⟩ | ⟨e1, e2, e3⟩
          · refine Or.inl ⟨rfl, nngLab rows L1, L3, L, e1, ?_⟩
            subst hL1
            exact ⟨fun v hv => by rw [if_pos (show UsesNng ordered um from hnng)], e2.afterNng, e3⟩
          · refine Or.inr ⟨e1, e2.imp (k1.trans hf2) id id, ?_, _, e3, hlt2⟩
            rintro rfl
            rw [assignDone, decide_eq_true_eq] at hdone2
            constructor <;> rintro rfl <;> exact hdone2 (Or.inr ⟨rfl, rfl⟩)
      · rw [if_neg hnng, wpM_bind]
        refine freeDigraph_spec (ptrOwn son + M) (by rw [b2, hlive]; abel) fun w3 k1 k2 k3 => ?_
        rw [wpM_bind]
        refine (assignRemaining_spec hcfg hs (lb := ⟨lb.id, l⟩) (base := labelled cl.n L1) (seeds := seeds) (son := son) (sr := sr) (w := w3) um rs radius um2 rs2 radius2 M k2 rfl hnsz
          hson hsr hsrl hbase hbase0 (nodup_labelled _ _)
          (fun x hx => ⟨hsok.range x hx, hseedLab x hx⟩) hseeds0 hsok.nodup a2 (hup hlt1) hl1 hlb hP (hu.congr (k1.trans b1))).mono ?_
        rintro ⟨ec, lab⟩ w4 ⟨d1, d2, l3, d3, d4, d5⟩
        dsimp only at d1 d2 d3 d4 d5 ⊢
        rw [wpM_pure]
        have hf3 : w3.fails = w.fails := k1.trans b1
        rw [noFail_congr hf3] at d5
        refine ⟨d1.trans hf3, by simpa [Digraph.own, Digraph.null] using d2, l3, by dsimp only; rw [d3], d4.trans a1, ?_⟩
        rcases d5 with ⟨rfl, L3, L, e1, e2, e3⟩ | ⟨e1, e2, e3⟩
        · refine Or.inl ⟨rfl, L1, L3, L, e1, ?_⟩
          subst hL1
          exact ⟨fun v hv => by rw [if_neg (show ¬ UsesNng ordered um from hnng)], e2, e3⟩
        · refine Or.inr ⟨e1, e2.imp hf3 id id, ?_, _, e3, hlt1⟩
          rintro rfl
          rw [assignDone, decide_eq_true_eq] at hdone
          exact ⟨fun h => hdone (Or.inr ⟨h, rfl⟩), fun h => hnng (Or.inl h)⟩

end Scc
