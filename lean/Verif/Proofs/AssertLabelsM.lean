/-
The assignment of labels and the estimate of the radius, with assertions: the same as without.
-/
import Verif.Proofs.AssertLabels
import Verif.Proofs.Call

set_option linter.unusedSimpArgs false
set_option linter.unusedVariables false

namespace Scc

variable {F : Type} [FloatOps F]

theorem isInit_set {cfg : Cfg} {cl : Clustering} {k : Nat} {b : Blk Int} (h : cl.isInitialized cfg = true) (hk : k ≤ cfg.clabelMax) :
    ({ cl with numClusters := k, label := some b } : Clustering).isInitialized cfg = true := by
  obtain ⟨h1, h2, h3, h4, h5⟩ := isInitialized_iff.1 h
  exact isInitialized_iff.2 ⟨h1, h2, h3, hk, fun _ => nofun⟩

theorem isInit_label {cfg : Cfg} {cl : Clustering} {b : Blk Int} (h : cl.isInitialized cfg = true) : ({ cl with label := some b } : Clustering).isInitialized cfg = true :=
  isInit_set h (isInitialized_iff.1 h).2.2.2.1

theorem assignByNngDbg_eq {cfg : Cfg} (hcfg : cfg.Valid) {cl : Clustering} {nng : Digraph} {rows : Nat → List Nat} {lb : Blk Int} {L : Nat → Option Nat} {w : World}
    (hinit : cl.isInitialized cfg = true) (hlab : cl.label = some lb) (he : off rows nng.n ≠ 0)
    (hr : nng.Repr cfg rows) (hn : nng.n = cl.n) (h : LabelsAre cfg cl.n lb.buf L) (hlt : LabelsLt cl.n cfg.clabelMax L) (hlb : lb.id ∈ w.live)
    (hng : ∀ i ∈ nng.ids, i ∈ w.live) :
    assignByNngDbg cfg cl nng w = assignByNng cfg cl.n nng (some lb) w := by
  unfold assignByNngDbg assignByNng
  rw [asrtM_bind hinit, asrtValid_bind hr hng, asrtNonempty_bind hr he hng, hlab]
  refine mbind_eq rfl wpM_allocE ?_
  rintro (_ | b) w1 ⟨k1, k2, k3⟩
  · rfl
  dsimp only
  rw [k3 b rfl]
  have hcsr : Csr cl.n (ptrBuf nng.head) (ptrBuf nng.tail) rows := hn ▸ hr.csr
  have hl1 : ∀ i ∈ b.id :: ptrIds (some lb), i ∈ w1.live := by simp [ptrIds, ptrOwn, k2, hlb]
  refine mbind_eq rfl (wpM_useK.2 ⟨hl1, (unassignedFlags_spec hcfg (labels := lb.buf) h hlt (by simp)).mono fun a ha => ⟨rfl, ha⟩⟩ : WpM _ w1 fun a w' => w' = w1 ∧ _) ?_
  rintro s w2 ⟨rfl, a1, a2⟩
  exact mbind_same (useK_eq (assignByNngKDbg_eq hcfg hcsr a2 h hlt))

theorem assignBySearchDbg_eq {cfg : Cfg} (hcfg : cfg.Valid) {spi : Spi F} {A : Criterion F} {dist : Nat → Nat → F} {mayRefuse : Prop} {cl : Clustering}
    (hs : SpiOk spi cl.n A dist mayRefuse) {o : spi.NN} {set : List Nat} {own : Multiset Nat} {ids : List Nat} {w : World} {lb : Blk Int} {L : Nat → Option Nat}
    {ta : Blk Nat} {T : List Nat} (rs : Bool) (radius : F) (hrad : rs = true → FloatOps.lt FloatOps.zero radius = true) (hinit : cl.isInitialized cfg = true) (hlab : cl.label = some lb)
    (ho : hs.isNN o set own ids) (hown : own ≤ w.live) (hids : ∀ i ∈ ids, i ∈ w.live)
    (hset : ∀ x ∈ set, x < cl.n ∧ (L x).isSome) (hset0 : set ≠ []) (h : LabelsAre cfg cl.n lb.buf L) (hlt : LabelsLt cl.n cfg.clabelMax L) (hlb : lb.id ∈ w.live) (hta : ta.id ∈ w.live)
    (hT : Pre ta.buf T) (hTr : ∀ q ∈ T, q < cl.n ∧ L q = none) (hTn : T.Nodup) (hT0 : 0 < T.length) (hTl : T.length ≤ ta.buf.len) (hu : w.UncheckedOk) :
    assignBySearchDbg cfg spi o cl T.length ta rs radius w = assignBySearch spi o (some lb) T.length ta rs radius w := by
  unfold assignBySearchDbg assignBySearch
  rw [asrtM_bind hinit, asrtM_bind hT0, asrtRadius_bind hrad, hlab]
  have hal : WpM (alloc (Buf.raw T.length : Buf Nat) false) w fun p w1 => w1.fails = w.fails ∧ ∃ i, p = some ⟨i, Buf.raw T.length⟩ ∧ w1.live = {i} + w.live :=
    wpM_allocU hu fun i w1 k1 k2 k3 => ⟨k1, i, rfl, k2⟩
  refine mbind_eq rfl hal ?_
  rintro _ w1 ⟨k1, i, rfl, k2⟩
  have hwl : ∀ j, j ∈ w.live → j ∈ w1.live := fun j hj => by rw [k2]; exact Multiset.mem_add.2 (Or.inr hj)
  have hta1 := hwl _ hta
  have hi1 : i ∈ w1.live := by rw [k2]; simp
  have htch : ∀ j ∈ ta.id :: ptrIds (some (⟨i, Buf.raw T.length⟩ : Blk Nat)), j ∈ w1.live := by simp [ptrIds, hta1, hi1]
  rw [touch_bind htch, touch_bind htch]
  have hsl : 1 ≤ set.length := List.length_pos_iff.2 hset0
  have hcall : NNCall cl.n set w1 ids T.length (some ⟨[ta.id], ta.buf⟩) T 1 rs (if rs then .same else .null) (ptrBuf (some (⟨i, Buf.raw T.length⟩ : Blk Nat))) := by
    refine ⟨hT, rfl, fun j hj => hwl j (hids j hj), by simp [arrIds, hta1], hT0, fun q hq => (hTr q hq).1, Nat.one_pos, hsl, by simp [ptrBuf], ?_, ?_⟩
    · cases rs
      · exact Or.inl rfl
      · right; simpa [OutQ.len] using hTl
    · simp
  refine mbind_eq rfl (hs.nnSearch o set own ids _ _ T 1 rs radius _ _ w1 ho (hown.trans (by rw [k2]; exact Multiset.le_add_left _ _)) hcall) ?_
  rintro (_ | r) w2 ⟨c1, c2, c3, c4⟩
  · rfl
  dsimp only at c4 ⊢
  obtain ⟨d1, d2, res, e1, e2, e3⟩ := c4
  obtain ⟨ans, f1, f2⟩ := answers_fun (e1 ▸ hTn)
  rw [e1] at f2
  have hmem : ∀ q ∈ T, ∃ p ∈ res, p.1 = q ∧ p.2 = ans q := by
    intro q hqm
    rw [← e1] at hqm
    obtain ⟨p, hp, rfl⟩ := List.mem_map.1 hqm
    exact ⟨p, hp, rfl, (f1 p hp).symm⟩
  have hrow : ∀ q l, ans q = some l → l.length = 1 ∧ l ⊆ set := by
    intro q l hql
    have hqm : q ∈ T := by by_contra hc; rw [f2 q hc] at hql; simp at hql
    obtain ⟨p, hp, rfl, h2⟩ := hmem q hqm
    have := (e2 p hp).2.2 l (h2.trans hql)
    exact ⟨this.1, this.2.2⟩
  have hall : rs = false → okOf ans T = T := by
    intro hrs
    refine List.filter_eq_self.2 fun q hqm => ?_
    obtain ⟨p, hp, rfl, h2⟩ := hmem q hqm
    rw [← h2]
    exact Option.isSome_iff_ne_none.2 ((e2 p hp).2.1 (by simp [hrs]))
  have hae : answered res = (okOf ans T).map fun q => (q, ansRows ans q) := by rw [answered_eq f1, e1]
  have hnum : r.numOk = (okOf ans T).length := by rw [e3.numOk, hae, List.length_map]
  have hget : ∀ (i q : Nat), (okOf ans T)[i]? = some q → (answered res)[i]? = some (q, ansRows ans q) := by
    intro i q hi; rw [hae, List.getElem?_map, hi]; rfl
  have hokq : Pre (if rs then r.outQ else ta.buf) (okOf ans T) := by
    cases hrs : rs with
    | true =>
      rw [if_pos rfl]
      intro i q hi
      exact e3.queries (by simp [hrs]) i _ (hget i q hi)
    | false =>
      rw [if_neg Bool.false_ne_true, hall hrs]
      exact hT
  rw [asrtM_bind (fun hrs => by rw [hnum, hall hrs]), hnum]
  refine mbind_same (useK_eq (copyFromNNDbg_eq hcfg (labels := lb.buf) h hlt hTr hTn hokq (fun q l hq => ?_) (fun i q hi x hx => ?_)))
  · obtain ⟨h1, h3⟩ := hrow q l hq
    obtain ⟨x, rfl⟩ := List.length_eq_one_iff.1 h1
    exact ⟨x, rfl, hset x (h3 (by simp))⟩
  · have h2 := e3.neighbors i _ (hget i q hi) 0 x (by simp [ansRows, hx])
    simpa using h2

theorem assignUnassignedDbg_eq {cfg : Cfg} (hcfg : cfg.Valid) {spi : Spi F} {A : Criterion F} {dist : Nat → Nat → F} {mayRefuse : Prop} {cl : Clustering}
    (hs : SpiOk spi cl.n A dist mayRefuse) {oa os : Option spi.NN} {base seeds : List Nat} {owna owns : Multiset Nat} {idsa idss : List Nat} {w : World} {lb : Blk Int}
    {L : Nat → Option Nat} {ta : Blk Nat} {P : List Nat} (um : UnassignedMethod) (rs : Bool) (radius : F) (hrad : rs = true → FloatOps.lt FloatOps.zero radius = true)
    (hinit : cl.isInitialized cfg = true) (hlab : cl.label = some lb)
    (hoa : NNIs hs base owna idsa oa) (hos : NNIs hs seeds owns idss os) (hoa0 : um = .closestAssigned → oa ≠ none) (hos0 : um = .closestSeed → os ≠ none)
    (howna : owna ≤ w.live) (howns : owns ≤ w.live) (hidsa : ∀ i ∈ idsa, i ∈ w.live) (hidss : ∀ i ∈ idss, i ∈ w.live)
    (hbase : ∀ x ∈ base, x < cl.n ∧ (L x).isSome) (hbase0 : base ≠ []) (hseeds : ∀ x ∈ seeds, x < cl.n ∧ (L x).isSome) (hseeds0 : seeds ≠ [])
    (h : LabelsAre cfg cl.n lb.buf L) (hlt : LabelsLt cl.n cfg.clabelMax L) (hlb : lb.id ∈ w.live) (hta : ta.id ∈ w.live)
    (hPn : P.Nodup) (hPr : ∀ p ∈ P, p < cl.n) (hT : Pre ta.buf (P.filter fun v => (L v).isNone)) (hu : w.UncheckedOk) :
    assignUnassignedDbg cfg spi oa os um cl (P.filter fun v => (L v).isNone).length ta rs radius w =
      assignUnassigned spi oa os um (some lb) (P.filter fun v => (L v).isNone).length ta rs radius w := by
  have hTr : ∀ q ∈ (P.filter fun v => (L v).isNone), q < cl.n ∧ L q = none := by
    intro q hq
    obtain ⟨h1, h2⟩ := List.mem_filter.1 hq
    exact ⟨hPr q h1, by simpa using h2⟩
  have hTn : (P.filter fun v => (L v).isNone).Nodup := hPn.filter _
  unfold assignUnassignedDbg assignUnassigned
  by_cases h0 : 0 < (P.filter fun v => (L v).isNone).length
  · rw [if_pos h0, if_pos h0]
    by_cases h1 : um = .closestAssigned
    · subst h1
      rw [if_pos rfl, if_pos rfl]
      obtain ⟨o, rfl⟩ := Option.ne_none_iff_exists'.1 (hoa0 rfl)
      rw [useK_bind (by simp) rfl, useK_bind (by simp) rfl]
      exact assignBySearchDbg_eq hcfg hs rs radius hrad hinit hlab hoa howna hidsa hbase hbase0 h hlt hlb hta hT hTr hTn h0 hT.len hu
    · rw [if_neg h1, if_neg h1]
      by_cases h2 : um = .closestSeed
      · subst h2
        rw [if_pos rfl, if_pos rfl]
        obtain ⟨o, rfl⟩ := Option.ne_none_iff_exists'.1 (hos0 rfl)
        rw [useK_bind (by simp) rfl, useK_bind (by simp) rfl]
        exact assignBySearchDbg_eq hcfg hs rs radius hrad hinit hlab hos howns hidss hseeds hseeds0 h hlt hlb hta hT hTr hTn h0 hT.len hu
      · rw [if_neg h2, if_neg h2, hlab]
  · rw [if_neg h0, if_neg h0, hlab]

theorem searchRoundsDbg_eq {cfg : Cfg} (hcfg : cfg.Valid) {spi : Spi F} {A : Criterion F} {dist : Nat → Nat → F} {mayRefuse : Prop} {cl : Clustering}
    (hs : SpiOk spi cl.n A dist mayRefuse) {oa os : Option spi.NN} {base seeds : List Nat} {owna owns : Multiset Nat} {idsa idss : List Nat} {w : World} {lb : Blk Int}
    {L : Nat → Option Nat} {ta : Blk Nat} {son : Option (Blk Nat)} {P : List Nat} {lenPrimary : Nat} {primary : Option (Buf Nat)}
    (um : UnassignedMethod) (rs : Bool) (radius : F) (um2 : UnassignedMethod) (rs2 : Bool) (radius2 : F) (M : Multiset Nat)
    (hrad : rs = true → FloatOps.lt FloatOps.zero radius = true) (hrad2 : rs2 = true → FloatOps.lt FloatOps.zero radius2 = true)
    (hinit : cl.isInitialized cfg = true) (hlab : cl.label = some lb)
    (hlive : w.live = {ta.id} + owns + owna + ptrOwn son + M)
    (hoa : NNIs hs base owna idsa oa) (hos : NNIs hs seeds owns idss os)
    (hoa0 : um = .closestAssigned ∨ um2 = .closestAssigned → oa ≠ none) (hos0 : um = .closestSeed ∨ um2 = .closestSeed → os ≠ none)
    (hidsa : ∀ i ∈ idsa, i ∈ w.live) (hidss : ∀ i ∈ idss, i ∈ w.live)
    (hbase : ∀ x ∈ base, x < cl.n ∧ (L x).isSome) (hbase0 : base ≠ []) (hseeds : ∀ x ∈ seeds, x < cl.n ∧ (L x).isSome) (hseeds0 : seeds ≠ [])
    (h : LabelsAre cfg cl.n lb.buf L) (hlt : LabelsLt cl.n cfg.clabelMax L) (hl : cl.n ≤ lb.buf.len) (hlb : lb.id ∈ M)
    (hP : PrimaryIs cl.n lenPrimary primary P) (hta : ta.buf.len = cl.n - (labelled cl.n L).length + 1) (hu : w.UncheckedOk) :
    searchRoundsDbg cfg spi cl son oa os ta um rs radius lenPrimary primary um2 rs2 radius2 w =
      searchRounds cfg spi cl.n (some lb) son oa os ta um rs radius lenPrimary primary um2 rs2 radius2 w := by
  have hPn : P.Nodup := hP.sorted.imp fun h => Nat.ne_of_lt h
  have hPlen := length_unlabelled_le (L := L) hPn hP.range
  have htal : ta.id ∈ w.live := by rw [hlive]; simp
  have hlbl : lb.id ∈ w.live := by rw [hlive]; simp [hlb]
  have howna : owna ≤ w.live := by
    rw [hlive, show ({ta.id} + owns + owna + ptrOwn son + M : Multiset Nat) = owna + ({ta.id} + owns + ptrOwn son + M) by abel]; exact Multiset.le_add_right _ _
  have howns : owns ≤ w.live := by
    rw [hlive, show ({ta.id} + owns + owna + ptrOwn son + M : Multiset Nat) = owns + ({ta.id} + owna + ptrOwn son + M) by abel]; exact Multiset.le_add_right _ _
  unfold searchRoundsDbg searchRounds
  rw [← hP.len, hlab]
  have hlu : ∀ j ∈ ta.id :: ptrIds (some lb), j ∈ w.live := by simp [ptrIds, htal, hlbl]
  refine mbind_eq rfl (wpM_useK.2 ⟨hlu, (listUnassigned_spec hcfg (ta := ta.buf) (labels := lb.buf) h hlt hP.holds hP.range (by omega)).mono fun a ha => ⟨rfl, ha⟩⟩ :
    WpM _ w fun a w' => w' = w ∧ _) ?_
  rintro ⟨c, num⟩ w' ⟨rfl, a1, a2, a3⟩
  dsimp only at a1 a2 a3 ⊢
  subst a2
  refine mbind_eq (assignUnassignedDbg_eq hcfg hs (ta := ⟨ta.id, c⟩) um rs radius hrad hinit hlab hoa hos (fun h => hoa0 (Or.inl h)) (fun h => hos0 (Or.inl h)) howna howns hidsa hidss hbase hbase0 hseeds
      hseeds0 h hlt hlbl htal hPn hP.range a3 hu)
    (assignUnassigned_spec hcfg hs (ta := ⟨ta.id, c⟩) um rs radius hoa hos (fun h => hoa0 (Or.inl h)) (fun h => hos0 (Or.inl h)) howna howns hidsa hidss hbase hbase0 hseeds
      hseeds0 h hl hlbl htal hPn hP.range a3 hu) ?_
  rintro ⟨ec, l, c2⟩ w1 ⟨b1, b2, b3, b4, b5⟩
  dsimp only at b1 b2 b3 b4 b5 ⊢
  rcases b5 with ⟨rfl, b6, L3, b7, b8⟩ | ⟨rfl, b6, b7, b8⟩
  · rw [if_neg (by simp), if_neg (by simp)]
    refine mbind_same ?_
    have hlt3 : LabelsLt cl.n cfg.clabelMax L3 := b8.lt (fun x hx => (hbase x hx).1) (fun x hx => (hseeds x hx).1) hlt
    have hkeep : ∀ x, x < cl.n → (L x).isSome → (L3 x).isSome := by
      intro x hx hxs
      obtain ⟨c, hc⟩ := Option.isSome_iff_exists.1 hxs
      rw [b8.keep hx hc]; rfl
    have hlab3 : (labelled cl.n L).length ≤ (labelled cl.n L3).length := by
      unfold labelled
      rw [← List.countP_eq_length_filter, ← List.countP_eq_length_filter]
      refine List.countP_mono_left fun x hx hxs => ?_
      exact hkeep x (List.mem_range.1 hx) hxs
    have hroom := length_unlabelled_le (n := cl.n) (L := L3) (P := List.range cl.n) List.nodup_range (fun p hp => List.mem_range.1 hp)
    unfold secondRoundDbg secondRound
    by_cases hig : um2 = .ignore
    · rw [if_neg (by simp [hig]), if_neg (by simp [hig])]
    · rw [if_pos hig, if_pos hig]
      have hlu1 : ∀ j ∈ ta.id :: ptrIds (ptrSet (some lb) l), j ∈ w1.live := by rw [b2]; simp [ptrSet, ptrIds, htal, hlbl]
      have hls := listUnassigned_spec (pts := none) (P := List.range cl.n) (ta := c2) hcfg (labels := l) b7 hlt3 (arrHolds_range cl.n) (fun p hp => List.mem_range.1 hp) (by omega)
      rw [List.length_range] at hls
      refine mbind_eq rfl (wpM_useK.2 ⟨hlu1, hls.mono fun a ha => ⟨rfl, ha⟩⟩ : WpM _ w1 fun a w' => w' = w1 ∧ _) ?_
      rintro ⟨c3, num⟩ w2 ⟨rfl, d1, d2, d3⟩
      dsimp only at d1 d2 d3 ⊢
      subst d2
      exact mbind_same (assignUnassignedDbg_eq (cl := { cl with label := some ⟨lb.id, l⟩ }) hcfg hs (lb := ⟨lb.id, l⟩) (ta := ⟨ta.id, c3⟩) um2 rs2 radius2 hrad2 (isInit_label hinit) rfl hoa hos
        (fun h => hoa0 (Or.inr h)) (fun h => hos0 (Or.inr h))
        (by rw [b2]; exact howna) (by rw [b2]; exact howns) (by rw [b2]; exact hidsa) (by rw [b2]; exact hidss)
        (fun x hx => ⟨(hbase x hx).1, hkeep x (hbase x hx).1 (hbase x hx).2⟩) hbase0 (fun x hx => ⟨(hseeds x hx).1, hkeep x (hseeds x hx).1 (hseeds x hx).2⟩) hseeds0
        b7 hlt3 (by rw [b2]; exact hlbl) (by rw [b2]; exact htal) List.nodup_range (fun p hp => List.mem_range.1 hp) d3 (hu.congr b1))
  · rw [if_pos (by simp), if_pos (by simp)]

theorem assignRemainingDbg_eq {cfg : Cfg} (hcfg : cfg.Valid) {spi : Spi F} {A : Criterion F} {dist : Nat → Nat → F} {mayRefuse : Prop} {cl : Clustering}
    (hs : SpiOk spi cl.n A dist mayRefuse) {base seeds : List Nat} {w : World} {lb : Blk Int} {L : Nat → Option Nat} {son : Option (Blk Nat)} {sr : SeedResult}
    {P : List Nat} {lenPrimary total : Nat} {primary : Option (Buf Nat)}
    (um : UnassignedMethod) (rs : Bool) (radius : F) (um2 : UnassignedMethod) (rs2 : Bool) (radius2 : F) (M : Multiset Nat)
    (hrad : rs = true → FloatOps.lt FloatOps.zero radius = true) (hrad2 : rs2 = true → FloatOps.lt FloatOps.zero radius2 = true)
    (hinit : cl.isInitialized cfg = true) (hlab : cl.label = some lb)
    (hlive : w.live = ptrOwn son + M) (htot : total = (labelled cl.n L).length) (hnsz : cl.n < cfg.sizeMax)
    (hson : um = .closestAssigned ∨ um2 = .closestAssigned → ∃ b, son = some b ∧ Pre b.buf base)
    (hsr : sr.Holds seeds) (hsrl : ∀ i ∈ ptrIds sr.seeds, i ∈ M)
    (hbase : ∀ x ∈ base, x < cl.n ∧ (L x).isSome) (hbase0 : base ≠ []) (hbasen : base.Nodup)
    (hseeds : ∀ x ∈ seeds, x < cl.n ∧ (L x).isSome) (hseeds0 : seeds ≠ []) (hseedsn : seeds.Nodup)
    (h : LabelsAre cfg cl.n lb.buf L) (hlt : LabelsLt cl.n cfg.clabelMax L) (hl : cl.n ≤ lb.buf.len) (hlb : lb.id ∈ M)
    (hP : PrimaryIs cl.n lenPrimary primary P) (hu : w.UncheckedOk) :
    assignRemainingDbg cfg spi cl total base.length son sr um rs radius lenPrimary primary um2 rs2 radius2 w =
      assignRemaining cfg spi cl.n total base.length (some lb) son sr um rs radius lenPrimary primary um2 rs2 radius2 w := by
  have hlen := length_labelled_le cl.n L
  unfold assignRemainingDbg assignRemaining
  rw [asrtM_bind (fun hh => by obtain ⟨b, rfl, -⟩ := hson hh; rfl), hlab]
  refine mbind_eq rfl (initNN_spec hs (set := base) (arr := son) (line := 514) (w := w) (fun hd => ?_) hbase0 hbasen fun x hx => (hbase x hx).1) ?_
  · obtain ⟨b, rfl, h2⟩ := hson (of_decide_eq_true hd)
    exact ⟨b, rfl, h2, by rw [hlive]; simp⟩
  rintro (e | oa) w1 ⟨a1, a2⟩
  · rfl
  obtain ⟨a2, a3, owna, idsa, a4, a5, a6⟩ := a2
  dsimp only
  have hwl1 : ∀ i, i ∈ w.live → i ∈ w1.live := fun i hi => by rw [a5]; exact Multiset.mem_add.2 (Or.inr hi)
  have hML : ∀ i, i ∈ M → i ∈ w.live := fun i hi => by rw [hlive]; exact Multiset.mem_add.2 (Or.inr hi)
  rw [hsr.count]
  refine mbind_eq rfl (initNN_spec hs (set := seeds) (arr := sr.seeds) (line := 529) (w := w1) (fun hd => ?_) hseeds0 hseedsn fun x hx => (hseeds x hx).1) ?_
  · obtain ⟨b, h1, -, h2⟩ := hsr.block
    exact ⟨b, h1, h2, hwl1 _ (hML _ (hsrl _ (by rw [h1]; simp [ptrIds])))⟩
  rintro (e | os) w2 ⟨b1, b2⟩
  · rfl
  obtain ⟨b2, b3, owns, idss, b4, b5, b6⟩ := b2
  dsimp only
  have hmod : (cl.n + (cfg.sizeMax + 1) - total + 1) % (cfg.sizeMax + 1) = cl.n - (labelled cl.n L).length + 1 := by
    rw [htot, show cl.n + (cfg.sizeMax + 1) - (labelled cl.n L).length + 1 = (cl.n - (labelled cl.n L).length + 1) + (cfg.sizeMax + 1) by omega, Nat.add_mod_right,
      Nat.mod_eq_of_lt (by omega)]
  rw [hmod]
  have hf2 : w2.fails = w.fails := b1.trans a1
  refine mbind_eq rfl wpM_allocE ?_
  rintro (_ | ta) w3 ⟨k1, k2, k3⟩
  · rfl
  dsimp only
  have hf3 : w3.fails = w.fails := k1.trans hf2
  have hwl3 : ∀ i, i ∈ w1.live → i ∈ w3.live := fun i hi => by rw [k2, b5]; simp [hi]
  exact searchRoundsDbg_eq hcfg hs (ta := ta) (base := base) (seeds := seeds) um rs radius um2 rs2 radius2 M hrad hrad2 hinit hlab (by rw [k2, b5, a5, hlive, ptrOwn]; abel) a4 b4
    (fun hh => a3 (decide_eq_true hh)) (fun hh => b3 (decide_eq_true hh)) (fun j hj => hwl3 j (hwl1 j (a6 j hj))) (fun j hj => hwl3 j (b6 j hj))
    hbase hbase0 hseeds hseeds0 h hlt hl hlb hP (by rw [k3 ta rfl]; simp) (hu.congr hf3)

theorem initAssignedDbg_eq {cfg : Cfg} (hcfg : cfg.Valid) {n : Nat} {lb : Blk Int} {L : Nat → Option Nat} {need : Bool} {w : World} (h : LabelsAre cfg n lb.buf L)
    (hlt : LabelsLt n cfg.clabelMax L) (hpm : n ≤ cfg.pointMax) :
    initAssignedDbg cfg n (labelled n L).length need (some lb) w = initAssigned cfg n (labelled n L).length need (some lb) w := by
  unfold initAssignedDbg initAssigned
  cases need
  · rw [if_neg Bool.false_ne_true, if_neg Bool.false_ne_true]
  · rw [if_pos rfl, if_pos rfl]
    refine mbind_eq rfl wpM_allocE ?_
    rintro (_ | b) w1 ⟨k1, k2, k3⟩
    · rfl
    exact mbind_same (useK_eq (listAssignedDbg_eq hcfg h hlt rfl hpm))

theorem makeClustersDbg_eq {cfg : Cfg} (hcfg : cfg.Valid) {spi : Spi F} {n : Nat} {A : Criterion F} {dist : Nat → Nat → F} {mayRefuse : Prop}
    (hs : SpiOk spi n A dist mayRefuse) (hvalid : spi.valid = true) {cl : Clustering} {lb : Blk Int} {sr : SeedResult} {nng : Digraph} {rows : Nat → List Nat} {seeds : List Nat} {w : World}
    {P : List Nat} {lenPrimary : Nat} {primary : Option (Buf Nat)} (ordered : Bool)
    (um : UnassignedMethod) (rs : Bool) (radius : F) (um2 : UnassignedMethod) (rs2 : Bool) (radius2 : F) (M : Multiset Nat)
    (hum : um = .ignore ∨ um = .anyNeighbor ∨ um = .closestAssigned ∨ um = .closestSeed) (hum2 : um2 = .ignore ∨ um2 = .closestAssigned ∨ um2 = .closestSeed)
    (hrad : rs = true → FloatOps.lt FloatOps.zero radius = true) (hrad2 : rs2 = true → FloatOps.lt FloatOps.zero radius2 = true)
    (hinit : cl.isInitialized cfg = true) (he : off rows nng.n ≠ 0)
    (hcl : cl.n = n) (hlab : cl.label = some lb) (hl : n ≤ lb.buf.len) (hlb : lb.id ∈ M)
    (hsr : sr.Holds seeds) (hsrl : ∀ i ∈ ptrIds sr.seeds, i ∈ M) (hsok : SeedsOk n rows seeds) (hseeds0 : seeds ≠ []) (hcap : seeds.length ≤ cfg.clabelMax)
    (hr : nng.Repr cfg rows) (hn : nng.n = n) (hnd : ∀ v, v < n → (rows v).Nodup ∧ v ∉ rows v) (hlive : w.live = nng.own + M)
    (hP : PrimaryIs n lenPrimary primary P) (hnsz : n < cfg.sizeMax) (hu : w.UncheckedOk) :
    makeClustersDbg cfg spi cl sr nng ordered um rs radius lenPrimary primary um2 rs2 radius2 w = makeClusters cfg spi cl sr nng ordered um rs radius lenPrimary primary um2 rs2 radius2 w := by
  subst hcl
  have hcsr : Csr cl.n (ptrBuf nng.head) (ptrBuf nng.tail) rows := hn ▸ hr.csr
  have hML : ∀ i, i ∈ M → i ∈ w.live := fun i hi => by rw [hlive]; exact Multiset.mem_add.2 (Or.inr hi)
  have hngl : ∀ i ∈ nng.ids, i ∈ w.live := fun i hi => by rw [hlive]; exact Multiset.mem_add.2 (Or.inl (mem_ids_iff_own.1 hi))
  have hpm := (isInitialized_iff.1 hinit).2.2.1
  obtain ⟨sb, hsb1, -, hsb2⟩ := hsr.block
  have hseedLab : ∀ s ∈ seeds, (seedLab rows seeds s).isSome := by
    intro s hs'
    obtain ⟨i, hi⟩ := List.mem_iff_getElem?.1 hs'
    rw [hsok.seedLab hi (by simp [closedNbr])]; rfl
  have hlt1 : LabelsLt cl.n seeds.length (seedLab rows seeds) := fun v c _ hc => seedLab_lt hc
  have hlt2 : LabelsLt cl.n seeds.length (nngLab rows (seedLab rows seeds)) := nngLab_lt (fun v hv a ha => hcsr.range v hv a ha) hlt1
  have hup : ∀ {L : Nat → Option Nat}, LabelsLt cl.n seeds.length L → LabelsLt cl.n cfg.clabelMax L := fun h v c hv hc => (h v c hv hc).trans_le hcap
  have hbase : ∀ x ∈ labelled cl.n (seedLab rows seeds), x < cl.n ∧ (seedLab rows seeds x).isSome := fun x hx => mem_labelled.1 hx
  have hbase0 : labelled cl.n (seedLab rows seeds) ≠ [] := by
    obtain ⟨s, hs'⟩ := List.exists_mem_of_ne_nil seeds hseeds0
    exact List.ne_nil_of_mem (mem_labelled.2 ⟨hsok.range s hs', hseedLab s hs'⟩)
  have hcnt : 0 < sr.count := by rw [hsr.count]; exact List.length_pos_iff.2 hseeds0
  have hsome : sr.seeds.isSome = true := by rw [hsb1]; rfl
  unfold makeClustersDbg makeClusters
  rw [asrtM_bind hinit, asrtM_bind hvalid, asrtM_bind hs.numPoints, asrtM_bind hcnt, asrtM_bind hsome, asrtValid_bind hr hngl, asrtNonempty_bind hr he hngl, asrtM_bind hum, asrtRadius_bind hrad,
    asrtM_bind hum2, asrtRadius_bind hrad2]
  have hall : ∀ i ∈ ptrIds sr.seeds ++ nng.ids ++ ptrIds cl.label, i ∈ w.live := by
    intro i hi
    rw [hlab] at hi
    simp only [List.mem_append, ptrIds, List.mem_singleton] at hi
    rcases hi with (hi | hi) | rfl
    · exact hML i (hsrl i hi)
    · exact hngl i hi
    · exact hML _ hlb
  have hse : assignSeedsMDbg cfg cl sr nng w =
      useK (ptrIds sr.seeds ++ nng.ids ++ ptrIds cl.label) (assignSeeds cfg cl.n sr.count (ptrBuf sr.seeds) (ptrBuf nng.head) (ptrBuf nng.tail) (ptrBuf cl.label)) w := by
    unfold assignSeedsMDbg
    rw [asrtM_bind hinit, asrtM_bind (show cl.label.isSome = true by rw [hlab]; rfl), asrtM_bind hcnt, asrtM_bind hsome, asrtValid_bind hr hngl, asrtNonempty_bind hr he hngl]
    refine useK_eq ?_
    rw [hsr.count, hsb1, hlab]
    exact assignSeedsDbg_eq hcfg hcsr hsb2 hsok hnd hcap hl
  have hsp : Wp (assignSeeds cfg cl.n sr.count (ptrBuf sr.seeds) (ptrBuf nng.head) (ptrBuf nng.tail) (ptrBuf cl.label)) fun r => r.1.len = lb.buf.len ∧ LabelsAre cfg cl.n r.1 (seedLab rows seeds) ∧
      r.2 = (labelled cl.n (seedLab rows seeds)).length := by
    rw [hsr.count, hsb1, hlab]
    exact assignSeeds_spec hcfg (labels := lb.buf) (sb := sb.buf) hcsr hsb2 hsok hnd hcap hl
  refine mbind_eq hse (wpM_useK.2 ⟨hall, hsp.mono fun a ha => ⟨rfl, ha⟩⟩ : WpM _ w fun a w' => w' = w ∧ _) ?_
  rintro ⟨l, num⟩ w' ⟨rfl, a1, a2, a3⟩
  dsimp only at a1 a2 a3 ⊢
  subst a3
  rw [hlab, hsr.count]
  have hset : ptrSet (some lb) l = some ⟨lb.id, l⟩ := rfl
  rw [hset]
  have hl1 : cl.n ≤ l.len := by omega
  generalize hL1 : seedLab rows seeds = L1 at *
  by_cases hdone : assignDone cl.n (labelled cl.n L1).length um um2 = true
  · rw [hdone, if_pos rfl, if_pos rfl]
  rw [if_neg hdone, if_neg hdone]
  refine mbind_eq (initAssignedDbg_eq hcfg a2 (hup hlt1) hpm) (initAssigned_spec hcfg (lb := ⟨lb.id, l⟩) a2 (hup hlt1) (hML _ hlb)) ?_
  rintro (e | son) w1 ⟨b1, b2⟩
  · rfl
  obtain ⟨b2, b3⟩ := b2
  dsimp only
  have hwl : ∀ i, i ∈ w'.live → i ∈ w1.live := fun i hi => by rw [b2]; exact Multiset.mem_add.2 (Or.inr hi)
  have hson : um = .closestAssigned ∨ um2 = .closestAssigned → ∃ b, son = some b ∧ Pre b.buf (labelled cl.n L1) := fun hh => b3 (decide_eq_true hh)
  by_cases hnng : um = .anyNeighbor ∨ ordered = true ∧ um = .closestAssigned
  · rw [if_pos hnng, if_pos hnng]
    refine mbind_eq (assignByNngDbg_eq (cl := { cl with numClusters := seeds.length, label := some ⟨lb.id, l⟩ }) hcfg (isInit_set hinit hcap) rfl he hr hn a2 (hup hlt1) (hwl _ (hML _ hlb)) fun i hi => hwl i (hngl i hi))
      (assignByNng_spec hcfg (lb := ⟨lb.id, l⟩) hr hn a2 (hup hlt1) hl1 (hwl _ (hML _ hlb)) (fun i hi => hwl i (hngl i hi)) (hu.congr b1)) ?_
    rintro ⟨l2, num'⟩ w2 ⟨c1, c2, c3, c4, c5, c6⟩
    dsimp only at c1 c2 c3 c4 c5 c6 ⊢
    rw [c6]
    have hset2 : ptrSet (some (⟨lb.id, l⟩ : Blk Int)) l2 = some ⟨lb.id, l2⟩ := rfl
    rw [hset2]
    have hl2 : cl.n ≤ l2.len := by omega
    have hf2 : w2.fails = w'.fails := c1.trans b1
    by_cases hdone2 : assignDone cl.n (labelled cl.n (nngLab rows L1)).length (afterNng um) um2 = true
    · rw [hdone2, if_pos rfl, if_pos rfl]
    rw [if_neg hdone2, if_neg hdone2]
    have hfr : WpM (freeDigraph nng) w2 fun _ w3 => w3.fails = w2.fails ∧ w3.live = ptrOwn son + M :=
      freeDigraph_spec (ptrOwn son + M) (by rw [c2, b2, hlive]; abel) fun w3 k1 k2 k3 => ⟨k1, k2⟩
    refine mbind_eq rfl hfr ?_
    rintro dn w3 ⟨k1, k2⟩
    have hsomeL : ∀ x, (L1 x).isSome → (nngLab rows L1 x).isSome := fun x hx => nngLab_isSome.2 (Or.inl hx)
    have hson' : afterNng um = .closestAssigned ∨ um2 = .closestAssigned → ∃ b, son = some b ∧ Pre b.buf (labelled cl.n L1) := by
      rintro (hh | hh)
      · refine hson (Or.inl ?_)
        unfold afterNng at hh
        split at hh
        · simp at hh
        · exact hh
      · exact hson (Or.inr hh)
    exact mbind_same (assignRemainingDbg_eq (cl := { cl with numClusters := seeds.length, label := some ⟨lb.id, l2⟩ }) hcfg hs (lb := ⟨lb.id, l2⟩) (base := labelled cl.n L1) (seeds := seeds) (son := son) (sr := sr) (w := w3)
      (afterNng um) rs radius um2 rs2 radius2 M hrad hrad2 (isInit_set hinit hcap) rfl k2 rfl hnsz
      hson' hsr hsrl (fun x hx => ⟨(hbase x hx).1, hsomeL x (hbase x hx).2⟩) hbase0 (nodup_labelled _ _)
      (fun x hx => ⟨hsok.range x hx, hsomeL x (hseedLab x hx)⟩) hseeds0 hsok.nodup c5 (hup hlt2) hl2 hlb hP (hu.congr (k1.trans hf2)))
  · rw [if_neg hnng, if_neg hnng]
    have hfr : WpM (freeDigraph nng) w1 fun _ w3 => w3.fails = w1.fails ∧ w3.live = ptrOwn son + M :=
      freeDigraph_spec (ptrOwn son + M) (by rw [b2, hlive]; abel) fun w3 k1 k2 k3 => ⟨k1, k2⟩
    refine mbind_eq rfl hfr ?_
    rintro dn w3 ⟨k1, k2⟩
    exact mbind_same (assignRemainingDbg_eq (cl := { cl with numClusters := seeds.length, label := some ⟨lb.id, l⟩ }) hcfg hs (lb := ⟨lb.id, l⟩) (base := labelled cl.n L1) (seeds := seeds) (son := son) (sr := sr) (w := w3)
      um rs radius um2 rs2 radius2 M hrad hrad2 (isInit_set hinit hcap) rfl k2 rfl hnsz
      hson hsr hsrl hbase hbase0 (nodup_labelled _ _)
      (fun x hx => ⟨hsok.range x hx, hseedLab x hx⟩) hseeds0 hsok.nodup a2 (hup hlt1) hl1 hlb hP (hu.congr (k1.trans b1)))

end Scc
