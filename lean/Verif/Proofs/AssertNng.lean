/-
The functions that build nearest neighbour digraphs, with assertions: the same as without.
-/
import Verif.Model.AssertNng
import Verif.Proofs.AssertSeeds
import Verif.Proofs.AssertBatches
import Verif.Proofs.NngTypes

set_option linter.unusedSimpArgs false
set_option linter.unusedVariables false

namespace Scc

variable {F : Type} [FloatOps F]

theorem asrtRadius_bind {rs : Bool} {radius : F} {β : Type} {f : Unit → M β} (h : rs = true → FloatOps.lt FloatOps.zero radius = true) :
    (asrtRadius rs radius >>= f) = f () := asrtM_bind h

theorem mem_own_left {d : Digraph} {w : World} {L : Multiset Nat} (h : w.live = d.own + L) : ∀ i ∈ d.ids, i ∈ w.live :=
  fun i hi => by rw [h]; exact Multiset.mem_add.2 (Or.inl (mem_ids_iff_own.1 hi))

/-- Using blocks that are live changes nothing. -/
theorem touch_bind {β : Type} {ids : List Nat} {f : Unit → M β} {w : World} (hl : ∀ i ∈ ids, i ∈ w.live) : (touch ids >>= f) w = f () w := useK_bind hl rfl

theorem shrinkNngDbg_eq {cfg : Cfg} {d : Digraph} {n m lenQ k numOk t : Nat} {rs : Bool} {outQ : Buf Nat} {w : World} (hs : d.Storage cfg n m) (hpm : n ≤ cfg.pointMax)
    (ht : (ptrBuf d.tail).get n = some t) (hk : t ≤ numOk * k) (hsz : numOk * k ≤ cfg.sizeMax) (hr : numOk < lenQ → rs = true) (hl : ∀ i ∈ d.ids, i ∈ w.live) :
    shrinkNngDbg cfg d lenQ k rs numOk outQ w = shrinkNng cfg d lenQ k numOk outQ w := by
  unfold shrinkNngDbg shrinkNng
  by_cases hlt : numOk < lenQ
  · rw [if_pos hlt, if_pos hlt, asrtM_bind (hr hlt)]
    exact mbind_same (changeArcStorageDbg_eq hs hpm ht (by rw [Nat.mod_eq_of_lt (by omega)]; exact hk) hl)
  · rw [if_neg hlt, if_neg hlt]

theorem makeNngFromSearchDbg_eq {cfg : Cfg} {spi : Spi F} {n : Nat} {A : Criterion F} {dist : Nat → Nat → F} {mayRefuse : Prop} (hs : SpiOk spi n A dist mayRefuse)
    {o : spi.NN} {L : List Nat} {own : Multiset Nat} {ids : List Nat} {w : World} {lenQ : Nat} {queries : Option Arr} {Q : List Nat} {k : Nat} (rs : Bool) (radius : F)
    {outQ : OutQ} (hn : 0 < n) (hz : n < cfg.sizeMax) (hrad : rs = true → FloatOps.lt FloatOps.zero radius = true)
    (hpm : n ≤ cfg.pointMax) (ho : hs.isNN o L own ids) (hown : own ≤ w.live) (hids : ∀ i ∈ ids, i ∈ w.live)
    (hq : QueryInput w n lenQ queries Q) (hk : 0 < k) (hkl : k ≤ L.length) (hsz : lenQ * k ≤ cfg.sizeMax) (hout : outQ = .null ∨ lenQ ≤ outQ.len queries)
    (hsame : outQ = .same → queries ≠ none) :
    makeNngFromSearchDbg cfg spi o n lenQ queries k rs radius outQ w = makeNngFromSearch cfg spi o n lenQ queries k rs radius outQ w := by
  unfold makeNngFromSearchDbg makeNngFromSearch
  rw [asrtM_bind hq.pos, asrtM_bind hk, asrtRadius_bind hrad]
  have hint : WpM (internalOut rs outQ lenQ) w (fun r w' => match r with
      | .error e => True
      | .ok p => p.2.isSome = true → rs = true ∧ outQ.isNull = true) := by
    unfold internalOut
    cases rs
    · rw [if_neg Bool.false_ne_true, wpM_pure]; simp
    · rw [if_pos rfl]
      cases outQ with
      | null =>
        dsimp only
        rw [wpM_bind]
        refine wpM_alloc (fun w1 hf k1 k2 k3 => ?_) (fun i w1 k1 k2 k3 => ?_)
        · exact wpM_fail fun w2 l1 l2 l3 => trivial
        · dsimp only
          rw [wpM_pure]
          exact fun _ => ⟨rfl, rfl⟩
      | same => dsimp only; rw [wpM_pure]; simp
      | buf b => dsimp only; rw [wpM_pure]; simp
  refine mbind_eq rfl ((internalOut_spec rs outQ lenQ w).and hint) ?_
  rintro (e | ⟨dq, internal⟩) w1 ⟨h, hi⟩
  · rfl
  obtain ⟨a1, a2, a3, a4⟩ := h
  dsimp only at a1 a2 a3 a4 hi ⊢
  rw [Nat.mod_eq_of_lt (show lenQ * k < cfg.sizeMax + 1 by omega)]
  refine mbind_eq (initDigraphDbg_eq hn hpm hz) (initDigraph_spec cfg n (lenQ * k) w1) ?_
  rintro (e | d) w2 h
  · rfl
  obtain ⟨b1, b2, b3, b4⟩ := h
  dsimp only
  have hl2 : w2.live = d.own + (ptrOwn internal + w.live) := by rw [b2, a3]
  have hidl : ∀ i ∈ d.ids ++ ptrIds internal, i ∈ w2.live := by
    intro i hi
    rw [hl2]
    rcases List.mem_append.1 hi with hi | hi
    · exact Multiset.mem_add.2 (Or.inl (mem_ids_iff_own.1 hi))
    · refine Multiset.mem_add.2 (Or.inr (Multiset.mem_add.2 (Or.inl ?_)))
      cases internal <;> simp_all [ptrIds, ptrOwn]
  have hwl : ∀ i, i ∈ w.live → i ∈ w2.live := fun i hi => by
    rw [hl2]; exact Multiset.mem_add.2 (Or.inr (Multiset.mem_add.2 (Or.inr hi)))
  rw [touch_bind hidl, touch_bind hidl]
  have hcall : NNCall n L w2 ids lenQ queries Q k rs dq (ptrBuf d.head) := by
    refine ⟨hq.holds, hq.len, fun i hi => hwl i (hids i hi), fun i hi => hwl i (hq.live i hi), hq.pos, hq.range, hk, hkl, b4.head_len.ge, ?_, ?_⟩
    · rcases a4 with ⟨-, rfl⟩ | ⟨-, ⟨-, rfl⟩ | ⟨h1, rfl⟩⟩
      · exact Or.inl rfl
      · right; simp [OutQ.len]
      · exact Or.inr (hout.resolve_left h1)
    · rcases a4 with ⟨-, rfl⟩ | ⟨-, ⟨-, rfl⟩ | ⟨h1, rfl⟩⟩
      · simp
      · simp
      · exact hsame
  refine mbind_eq rfl (hs.nnSearch o L own ids lenQ queries Q k rs radius dq (ptrBuf d.head) w2 ho
    (hown.trans (by rw [hl2, ← add_assoc]; exact Multiset.le_add_left _ _)) hcall) ?_
  rintro (_ | r) w3 ⟨c1, c2, c3, c4⟩
  · rfl
  dsimp only at c4 ⊢
  obtain ⟨d1, d2, res, e1, e2, e3⟩ := c4
  have hnd : Q.Nodup := hq.sorted.imp fun h => Nat.ne_of_lt h
  obtain ⟨ans, f1, f2⟩ := answers_fun (e1 ▸ hnd)
  rw [e1] at f2
  have hallR : rs = false → ∀ q ∈ Q, ans q ≠ none := by
    intro hrs q hqm
    rw [← e1] at hqm
    obtain ⟨p, hp, rfl⟩ := List.mem_map.1 hqm
    rw [f1 p hp]; exact (e2 p hp).2.1 (by simp [hrs])
  have hae : answered res = (okOf ans Q).map fun q => (q, ansRows ans q) := by rw [answered_eq f1, e1]
  have hnum : r.numOk = (okOf ans Q).length := by rw [e3.numOk, hae, List.length_map]
  have hall : rs = false → okOf ans Q = Q := fun hrs => List.filter_eq_self.2 fun q hqm => Option.isSome_iff_ne_none.2 (hallR hrs q hqm)
  have hnull : rs = true → dq ≠ .null := by
    intro hrs
    rcases a4 with ⟨h1, -⟩ | ⟨-, ⟨-, rfl⟩ | ⟨h1, rfl⟩⟩
    · simp [hrs] at h1
    · simp
    · exact h1
  rw [asrtM_bind (fun hrs => by have := hnull hrs; cases dq <;> simp_all [OutQ.isNull]),
    asrtM_bind (fun hrs => by rw [hnum, hall hrs, hq.len])]
  have hget : ∀ (i q : Nat), (okOf ans Q)[i]? = some q → (answered res)[i]? = some (q, ansRows ans q) := by
    intro i q hi; rw [hae, List.getElem?_map, hi]; rfl
  have hsort : (okOf ans Q).Pairwise (· < ·) := hq.sorted.filter _
  have hokq : OkQueries n lenQ (if rs then some r.outQ else queries.map Arr.buf) (okOf ans Q) := by
    cases hrs : rs with
    | true =>
      rw [if_pos rfl]
      intro i q hi
      exact e3.queries (hnull hrs) i _ (hget i q hi)
    | false =>
      rw [if_neg Bool.false_ne_true, hall hrs]
      cases hqs : queries with
      | none =>
        have h1 := hq.all hqs
        have h2 := hq.holds
        rw [hqs] at h2
        refine ⟨h1, ?_⟩
        have h3 : Q = List.range Q.length := h2
        rw [h3, hq.len, h1]
      | some a =>
        have h2 := hq.holds
        rw [hqs] at h2
        exact h2
  have hlive3 : ∀ i ∈ d.ids ++ ptrIds internal ++ arrIds queries, i ∈ w3.live := by
    intro i hi
    rw [c3]
    rcases List.mem_append.1 hi with hi | hi
    · exact hidl i hi
    · exact hwl i (hq.live i hi)
  have htl := writeTails_spec (k := k) (lenQ := lenQ) hsort (fun x hx => hq.range x (List.mem_filter.1 hx).1) hokq b4.tail_len
  rw [← hnum] at htl
  refine mbind_eq rfl (wpM_useK.2 ⟨hlive3, htl.mono fun a ha => ⟨rfl, ha⟩⟩ : WpM _ w3 fun a w' => w' = w3 ∧ _) ?_
  rintro tail w4 ⟨rfl, g1, g2⟩
  rw [asrtM_bind (fun h => (hi h).1), asrtM_bind (fun h => (hi h).2)]
  have hfree : WpM (freePtr internal) w4 (fun _ w5 => w5.live = d.own + w.live) :=
    wpM_freePtr (d.own + w.live) (by rw [c3, hl2]; abel) fun w5 k1 k2 k3 => k2
  refine mbind_eq rfl hfree ?_
  rintro ⟨⟩ w5 k2
  have hle : (okOf ans Q).length ≤ lenQ := (List.length_filter_le _ _).trans hq.len.le
  have hlt : tail.len = (ptrBuf d.tail).len := by rw [g1, b4.tail_len]
  refine shrinkNngDbg_eq (b4.refill d1 hlt) hpm (t := k * (okOf ans Q).countP (· < n)) ?_ ?_ ?_ ?_ ?_
  · show (ptrBuf (ptrSet d.tail tail)).get n = _
    rw [ptrSet_get hlt]
    exact g2 n le_rfl
  · rw [hnum, Nat.mul_comm]
    exact Nat.mul_le_mul_right k List.countP_le_length
  · rw [hnum]
    exact (Nat.mul_le_mul_right k hle).trans hsz
  · intro h
    cases hrs : rs with
    | true => rfl
    | false => rw [hnum, hall hrs, hq.len] at h; omega
  · intro i hi
    rw [k2]
    refine Multiset.mem_add.2 (Or.inl (mem_ids_iff_own.1 ?_))
    have : ({ d with head := ptrSet d.head r.nn, tail := ptrSet d.tail tail } : Digraph).ids = d.ids := by
      unfold Digraph.ids
      rw [ptrIds_ptrSet, ptrIds_ptrSet]
    rw [this] at hi; exact hi

theorem makeNngDbg_eq {cfg : Cfg} {spi : Spi F} {n : Nat} {A : Criterion F} {dist : Nat → Nat → F} {mayRefuse : Prop} (hs : SpiOk spi n A dist mayRefuse) (hvalid : spi.valid = true)
    {search : Option Arr} {L : List Nat} {w : World} {lenQ : Nat} {queries : Option Arr} {Q : List Nat} {k : Nat} (rs : Bool) (radius : F)
    {outQ : OutQ} (hn : 0 < n) (hz : n < cfg.sizeMax) (hrad : rs = true → FloatOps.lt FloatOps.zero radius = true)
    (hpm : n ≤ cfg.pointMax) (hsL : ArrHolds search L) (hLn : L.Nodup) (hL : ∀ x ∈ L, x < n) (hids : ∀ i ∈ arrIds search, i ∈ w.live)
    (hq : QueryInput w n lenQ queries Q) (hk : 0 < k) (hkl : k ≤ L.length) (hsz : lenQ * k ≤ cfg.sizeMax) (hout : outQ = .null ∨ lenQ ≤ outQ.len queries)
    (hsame : outQ = .same → queries ≠ none) :
    makeNngDbg cfg spi n L.length search lenQ queries k rs radius outQ w = makeNng cfg spi n L.length search lenQ queries k rs radius outQ w := by
  unfold makeNngDbg makeNng
  rw [asrtM_bind hvalid, asrtM_bind (show 0 < L.length by omega), asrtM_bind hq.pos, asrtM_bind hk, asrtM_bind hkl, asrtRadius_bind hrad]
  refine mbind_eq rfl (hs.nnInit L.length search L w hsL rfl (by omega) hLn hL hids) ?_
  rintro (_ | o) w1 ⟨a1, a2, a3⟩
  · rfl
  obtain ⟨own, hnn, a4⟩ := a3
  have hwl : ∀ i, i ∈ w.live → i ∈ w1.live := fun i hi => by rw [a4]; exact Multiset.mem_add.2 (Or.inr hi)
  exact mbind_same (makeNngFromSearchDbg_eq hs rs radius hn hz hrad hpm hnn (by rw [a4]; exact Multiset.le_add_right _ _) (fun i hi => hwl i (hids i hi))
    ⟨hq.holds, hq.len, hq.sorted, hq.range, hq.pos, fun i hi => hwl i (hq.live i hi), hq.all⟩ hk hkl hsz hout hsame)

theorem selfMatchDbg_eq {cfg : Cfg} {d : Digraph} {rows : Nat → List Nat} {lenS : Nat} {search : Option Arr} {w : World} (h : d.Repr cfg rows) (he : off rows d.n ≠ 0) (h0 : 0 < lenS)
    (hpm : search.isNone = true → lenS ≤ cfg.pointMax) (hl : ∀ i ∈ d.ids, i ∈ w.live) :
    selfMatchDbg cfg d lenS search w = useK (arrIds search ++ d.ids) (selfMatch lenS search (ptrBuf d.head) (ptrBuf d.tail)) w := by
  unfold selfMatchDbg
  rw [asrtValid_bind h hl, asrtNonempty_bind h he hl, asrtM_bind h0, asrtM_bind hpm]

/-- Redirecting arcs keeps a digraph well-formed. -/
theorem Digraph.Repr.redirect {cfg : Cfg} {d : Digraph} {rows rows' : Nat → List Nat} {n : Nat} {head : Buf Nat} (h : d.Repr cfg rows) (hn : d.n = n) (a1 : head.len = (ptrBuf d.head).len)
    (a2 : Csr n head (ptrBuf d.tail) rows') : ({ d with head := ptrSet d.head head } : Digraph).Repr cfg rows' := by
  subst hn
  refine ⟨a2.of_get (fun _ _ => rfl) (fun i _ => ptrSet_get a1 i), h.tail_len, ?_, h.vertices, h.arcs, h.arcs_size, ?_⟩
  · show (ptrBuf (ptrSet d.head head)).len = _
    rw [ptrSet_len a1]; exact h.head_len
  · show _ ↔ ptrSet d.head head = none
    rw [ptrSet_eq_none]; exact h.head_null

theorem nngSizeArcsDbg_eq {cfg : Cfg} {spi : Spi F} {n : Nat} {A : Criterion F} {dist : Nat → Nat → F} {mayRefuse : Prop} (hs : SpiOk spi n A dist mayRefuse) (hvalid : spi.valid = true)
    {w : World} {S lenPrimary : Nat} {primary : Option Arr} {Q : List Nat} (rs : Bool) (radius : F) (hrad : rs = true → FloatOps.lt FloatOps.zero radius = true) (hpm : n ≤ cfg.pointMax)
    (hq : QueryInput w n (if primary.isNone then n else lenPrimary) primary Q) (hS : 2 ≤ S) (hSn : S ≤ n) (hsz : n * S ≤ cfg.sizeMax) :
    nngSizeArcsDbg cfg spi n S lenPrimary primary rs radius w = nngSizeArcs cfg spi n S lenPrimary primary rs radius w := by
  have hz : n < cfg.sizeMax := by
    have := Nat.mul_le_mul_left n hS
    omega
  have hQn : Q.length ≤ n := by
    have hnd : Q.Nodup := hq.sorted.imp fun h => Nat.ne_of_lt h
    have := (List.subperm_of_subset hnd (l₂ := List.range n) fun q hqm => List.mem_range.2 (hq.range q hqm)).length_le
    simpa using this
  have hmul : (if primary.isNone then n else lenPrimary) * S ≤ n * S := Nat.mul_le_mul_right S (hq.len ▸ hQn)
  unfold nngSizeArcsDbg nngSizeArcs
  rw [asrtM_bind hvalid, asrtM_bind hs.numPoints, asrtM_bind (show 2 ≤ n by omega), asrtM_bind hSn, asrtM_bind hS, asrtRadius_bind hrad]
  have hmk := makeNng_spec (cfg := cfg) (search := none) (L := List.range n) (k := S) (outQ := .null) hs rs radius hpm (arrHolds_range n) List.nodup_range
    (fun x hx => List.mem_range.1 hx) (by simp [arrIds]) hq (by omega) (by simpa using hSn) (hmul.trans hsz) (Or.inl rfl) (by simp)
  have hme := makeNngDbg_eq (cfg := cfg) (search := none) (L := List.range n) (k := S) (outQ := .null) hs hvalid rs radius (by omega) hz hrad hpm (arrHolds_range n) List.nodup_range
    (fun x hx => List.mem_range.1 hx) (by simp [arrIds]) hq (by omega) (by simpa using hSn) (hmul.trans hsz) (Or.inl rfl) (by simp)
  rw [List.length_range] at hmk hme
  refine mbind_eq hme hmk ?_
  rintro (e | out) w1 h
  · rfl
  obtain ⟨ans, h⟩ := h
  dsimp only
  have hids := mem_own_left h.live
  rw [digraphIsEmptyDbg_eq h.repr, useK_bind hids (digraphIsEmpty_spec h.repr), useK_bind hids (digraphIsEmpty_spec h.repr)]
  by_cases he : off (ansRows ans) out.nng.n = 0
  · rw [decide_eq_true he, if_pos rfl, if_pos rfl]
  rw [decide_eq_false he, if_neg Bool.false_ne_true, if_neg Bool.false_ne_true]
  have hcsr := h.repr.csr
  rw [h.n_eq] at hcsr
  have hsm := selfMatch_spec hcsr (arrHolds_range n) List.nodup_range (fun x hx => List.mem_range.1 hx)
  rw [List.length_range] at hsm
  refine mbind_eq (selfMatchDbg_eq h.repr he (by omega) (fun _ => hpm) hids) (wpM_useK.2 ⟨hids, hsm.mono fun a ha => ⟨rfl, ha⟩⟩ : WpM _ w1 fun a w' => w' = w1 ∧ _) ?_
  rintro head w2 ⟨rfl, a1, a2⟩
  refine mbind_same (deleteLoopsDbg_eq (h.repr.redirect h.n_eq a1 a2) ?_)
  intro i hi
  refine hids i ?_
  have : ({ out.nng with head := ptrSet out.nng.head head } : Digraph).ids = out.nng.ids := by
    unfold Digraph.ids
    rw [ptrIds_ptrSet]
  rwa [this] at hi

end Scc
