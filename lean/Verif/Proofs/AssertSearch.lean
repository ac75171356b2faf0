/-
The assertions of the built-in distance functions hold.
-/
import Verif.Model.AssertSearch
import Verif.Proofs.AssertLabels
import Verif.Proofs.AssertNng
import Verif.Proofs.DistSearch

set_option linter.unusedVariables false

namespace Scc

variable {F : Type} [FloatOps F]

theorem foldB_congr {α σ ρ : Type} {f g : σ → α → Option (Ctl σ ρ)} (l : List α) (h : ∀ a ∈ l, ∀ s, f s a = g s a) (s : σ) : foldB f s l = foldB g s l := by
  induction l generalizing s with
  | nil => rfl
  | cons a l ih =>
    unfold foldB
    rw [h a (by simp) s]
    refine bind_eq_some fun c _ => ?_
    cases c with
    | next s' => exact ih (fun a ha => h a (by simp [ha])) s'
    | stop r => rfl

theorem foldB_stop {α σ ρ : Type} {f : σ → α → Option (Ctl σ ρ)} {P : ρ → Prop} (l : List α) (h : ∀ a s r, f s a = some (.stop r) → P r) (s : σ) {r : ρ}
    (hr : foldB f s l = some (.stop r)) : P r := by
  induction l generalizing s with
  | nil => simp [foldB] at hr
  | cons a l ih =>
    unfold foldB at hr
    cases hc : f s a with
    | none => rw [hc] at hr; cases hr
    | some c =>
      rw [hc] at hr
      cases c with
      | next s' => exact ih s' hr
      | stop r' => cases hr; exact h a s _ hc

theorem sqDistDbg_eq {ds : DataSet F} {i j : Nat} (hi : i < ds.n) (hj : j < ds.n) : sqDistDbg ds i j = sqDist ds i j := by
  unfold sqDistDbg
  rw [asrt_bind hi, asrt_bind hj]

theorem idxGet_lt {a : Option Arr} {L : List Nat} {n i x : Nat} (h : ArrHolds a L) (hr : ∀ x ∈ L, x < n) (hi : i < L.length) (hx : idxGet a i = some x) : x < n := by
  rw [h.get (List.getElem?_eq_getElem hi)] at hx
  cases hx
  exact hr _ (List.getElem_mem hi)

theorem distMatrixKDbg_eq {ds : DataSet F} {points : Option Arr} {L : List Nat} (hi : ds.isInitialized = true) (h : ArrHolds points L) (hr : ∀ x ∈ L, x < ds.n) (h1 : 1 < L.length)
    (out : Buf F) : distMatrixKDbg ds L.length points out = distMatrixK ds L.length points out := by
  unfold distMatrixKDbg distMatrixK
  rw [asrt_bind hi, asrt_bind h1]
  congr 1
  refine forLt_same (fun _ _ => True) trivial fun p1 st _ hp1 _ => ⟨?_, fun _ _ => trivial⟩
  refine forLt_same (fun _ _ => True) trivial fun p2 st _ hp2 _ => ⟨?_, fun _ _ => trivial⟩
  refine bind_eq_some fun i hi => bind_eq_some fun j hj => ?_
  rw [sqDistDbg_eq (idxGet_lt h hr hp1 hi) (idxGet_lt h hr hp2 hj)]

theorem distRowsKDbg_eq {ds : DataSet F} {queries cols : Option Arr} {Q C : List Nat} (hi : ds.isInitialized = true) (h : ArrHolds queries Q) (hr : ∀ x ∈ Q, x < ds.n)
    (hc : ArrHolds cols C) (hcr : ∀ x ∈ C, x < ds.n) (h1 : 0 < Q.length) (h2 : 0 < C.length) (out : Buf F) :
    distRowsKDbg ds Q.length queries C.length cols out = distRowsK ds Q.length queries C.length cols out := by
  unfold distRowsKDbg distRowsK
  rw [asrt_bind hi, asrt_bind h1, asrt_bind h2]
  congr 1
  refine forLt_same (fun _ _ => True) trivial fun p1 st _ hp1 _ => ⟨?_, fun _ _ => trivial⟩
  refine forLt_same (fun _ _ => True) trivial fun p2 st _ hp2 _ => ⟨?_, fun _ _ => trivial⟩
  refine bind_eq_some fun i hi => bind_eq_some fun j hj => ?_
  rw [sqDistDbg_eq (idxGet_lt h hr hp1 hi) (idxGet_lt hc hcr hp2 hj)]

theorem maxDistKDbg_eq {ds : DataSet F} {search queries : Option Arr} {L Q : List Nat} (hi : ds.isInitialized = true) (hs : ArrHolds search L) (hsr : ∀ x ∈ L, x < ds.n)
    (hq : ArrHolds queries Q) (hqr : ∀ x ∈ Q, x < ds.n) (h1 : 0 < L.length) (h2 : 0 < Q.length) (outI : Buf Nat) (outD : Buf F) :
    maxDistKDbg ds L.length search Q.length queries outI outD = maxDistK ds L.length search Q.length queries outI outD := by
  unfold maxDistKDbg maxDistK
  rw [asrt_bind hi, asrt_bind h1, asrt_bind h2]
  refine forLt_same (fun _ _ => True) trivial fun q st _ hq1 _ => ⟨?_, fun _ _ => trivial⟩
  dsimp only
  congr 1
  refine forLt_same (fun _ _ => True) trivial fun s st _ hs1 _ => ⟨?_, fun _ _ => trivial⟩
  refine bind_eq_some fun i hi => bind_eq_some fun j hj => ?_
  rw [sqDistDbg_eq (idxGet_lt hq hqr hq1 hi) (idxGet_lt hs hsr hs1 hj)]

theorem fillRadiusDbg_eq {ds : DataSet F} {search : Option Arr} {L : List Nat} {q : Nat} (hs : ArrHolds search L) (hsr : ∀ x ∈ L, x < ds.n) (hq : q < ds.n) (k : Nat) (rsq : F) (base : Nat)
    (dl : Buf F) (il : Buf Nat) : fillRadiusDbg ds L.length search q k rsq base dl il = fillRadius ds L.length search q k rsq base dl il := by
  unfold fillRadiusDbg fillRadius
  congr 1
  unfold forLtB
  refine foldB_congr _ (fun s hs1 st => ?_) _
  dsimp only
  refine ite_both (fun _ => rfl) fun _ => bind_eq_some fun j hj => ?_
  rw [sqDistDbg_eq hq (idxGet_lt hs hsr (by simpa using hs1) hj)]

/-- The first loop stops early only with `k` points. -/
theorem fillRadius_found {ds : DataSet F} {search : Option Arr} {len q k base : Nat} {rsq : F} {dl : Buf F} {il : Buf Nat} {r : Nat × Nat × Buf F × Buf Nat}
    (h : fillRadius ds len search q k rsq base dl il = some r) : r.1 < len → r.2.1 = k := by
  unfold fillRadius at h
  obtain ⟨c, hc, h⟩ := Option.bind_eq_some_iff.1 h
  cases c with
  | next st => cases h; intro h; exact absurd h (lt_irrefl _)
  | stop r' =>
    cases h
    intro _
    refine foldB_stop (P := fun r : Nat × Nat × Buf F × Buf Nat => r.2.1 = k) _ (fun a s r hr => ?_) _ hc
    dsimp only at hr
    split at hr
    · rename_i hk; cases hr; exact hk
    · obtain ⟨j, -, hr⟩ := Option.bind_eq_some_iff.1 hr
      obtain ⟨d, -, hr⟩ := Option.bind_eq_some_iff.1 hr
      split at hr
      · cases hr
      · obtain ⟨x, -, hr⟩ := Option.bind_eq_some_iff.1 hr
        cases hr

theorem fillFirstDbg_eq {ds : DataSet F} {search : Option Arr} {L : List Nat} {q : Nat} (hs : ArrHolds search L) (hsr : ∀ x ∈ L, x < ds.n) (hq : q < ds.n) {k : Nat} (hk : k ≤ L.length)
    (base : Nat) (dl : Buf F) (il : Buf Nat) : fillFirstDbg ds search q k base dl il = fillFirst ds search q k base dl il := by
  unfold fillFirstDbg fillFirst
  refine forLt_same (fun _ _ => True) trivial fun s st _ hs1 _ => ⟨?_, fun _ _ => trivial⟩
  refine bind_eq_some fun j hj => ?_
  rw [sqDistDbg_eq hq (idxGet_lt hs hsr (by omega) hj)]

theorem fillRestDbg_eq {ds : DataSet F} {search : Option Arr} {L : List Nat} {q : Nat} (hs : ArrHolds search L) (hsr : ∀ x ∈ L, x < ds.n) (hq : q < ds.n) (k base : Nat) {found s : Nat}
    (hf : s < L.length → found = k) (dl : Buf F) (il : Buf Nat) : fillRestDbg ds L.length search q k base found s dl il = fillRest ds L.length search q k base s dl il := by
  unfold fillRestDbg fillRest
  refine forLt_same (fun _ _ => True) trivial fun t st ht hs1 _ => ⟨?_, fun _ _ => trivial⟩
  dsimp only
  rw [asrt_bind (hf (by omega))]
  refine bind_eq_some fun j hj => ?_
  rw [sqDistDbg_eq hq (idxGet_lt hs hsr hs1 hj)]

theorem nnQueryDbg_eq {ds : DataSet F} {search : Option Arr} {L : List Nat} {q : Nat} (hs : ArrHolds search L) (hsr : ∀ x ∈ L, x < ds.n) (hq : q < ds.n) {k : Nat} (hk : k ≤ L.length)
    (rs : Bool) (rsq : F) (base : Nat) (dl : Buf F) (il : Buf Nat) : nnQueryDbg ds L.length search q k rs rsq base dl il = nnQuery ds L.length search q k rs rsq base dl il := by
  unfold nnQueryDbg nnQuery
  refine ite_both (fun _ => ?_) fun _ => ?_
  · rw [fillRadiusDbg_eq hs hsr hq]
    refine bind_eq_some fun r hr => ?_
    dsimp only
    rw [fillRestDbg_eq hs hsr hq k base (fillRadius_found hr)]
  · rw [fillFirstDbg_eq hs hsr hq hk]
    refine bind_eq_some fun r hr => ?_
    dsimp only
    rw [fillRestDbg_eq hs hsr hq k base (fun _ => rfl)]

theorem nnSearchKDbg_eq {ds : DataSet F} {search queries : Option Arr} {L Q : List Nat} (hs : ArrHolds search L) (hsr : ∀ x ∈ L, x < ds.n) (hq : ArrHolds queries Q)
    (hqr : ∀ x ∈ Q, x < ds.n) {k : Nat} (hk : k ≤ L.length) {rs : Bool} (radius : F) {oq : OutQ} (ho : rs = true → oq ≠ .null) (hal : oq = .same → queries ≠ none)
    (dl : Buf F) (nn : Buf Nat) : nnSearchKDbg ds L.length search Q.length queries k rs radius oq dl nn = nnSearchK ds L.length search Q.length queries k rs radius oq dl nn := by
  unfold nnSearchKDbg nnSearchK
  dsimp only
  congr 1
  refine forLt_same (fun i (st : Nat × Buf Nat × Buf Nat × Buf F) => st.1 ≤ i ∧ (oq = .same → ∀ j x : Nat, i ≤ j → Q[j]? = some x → st.2.1.get j = some x)) ⟨le_refl 0, ?_⟩
    fun i st _ hiQ hI => ?_
  · rintro rfl j x - hx
    cases hqq : queries with
    | none => exact absurd hqq (hal rfl)
    | some a =>
      rw [hqq] at hq
      exact hq j x hx
  · obtain ⟨numOk, oqb, nnb, dlb⟩ := st
    obtain ⟨h1, h2⟩ := hI
    dsimp only at h1 h2 ⊢
    have hquery : queryAt queries oq oqb i = some Q[i] := by
      unfold queryAt
      split
      · exact h2 rfl i _ (le_refl i) (List.getElem?_eq_getElem hiQ)
      · exact hq.get (List.getElem?_eq_getElem hiQ)
    have hfound : ∀ r, nnQuery ds L.length search Q[i] k rs (FloatOps.mul radius radius) (numOk * k) dlb nnb = some r → r.1 = k ∨ oq.isNull = false := by
      intro r hr
      cases rs with
      | true =>
        right
        have := ho rfl
        cases oq with
        | null => exact absurd rfl this
        | same => rfl
        | buf b => rfl
      | false =>
        left
        unfold nnQuery at hr
        rw [if_neg (by simp)] at hr
        obtain ⟨x, -, hr⟩ := Option.bind_eq_some_iff.1 hr
        obtain ⟨y, -, hr⟩ := Option.bind_eq_some_iff.1 hr
        cases hr
        rfl
    refine ⟨get_both hquery ?_, fun st' hst => ?_⟩
    · rw [nnQueryDbg_eq hs hsr (hqr _ (List.getElem_mem hiQ)) hk]
      refine bind_eq_some fun r hr => ?_
      rw [asrt_bind (hfound r hr)]
      cases oq <;> rfl
    · rw [hquery] at hst
      obtain ⟨x, hx, hst⟩ := Option.bind_eq_some_iff.1 hst
      obtain ⟨r, -, hst⟩ := Option.bind_eq_some_iff.1 hst
      cases hx
      by_cases hrk : r.1 = k
      · rw [if_pos hrk] at hst
        cases oq with
        | null => cases hst; exact ⟨by dsimp only; omega, nofun⟩
        | same =>
          obtain ⟨b, hb, hst⟩ := Option.bind_eq_some_iff.1 hst
          cases hst
          rw [set_eq_some hb]
          refine ⟨by dsimp only; omega, fun _ j x hj hx => ?_⟩
          dsimp only
          rw [Buf.get_upd_ne _ _ (by omega)]
          exact h2 rfl j x (by omega) hx
        | buf b =>
          obtain ⟨b, hb, hst⟩ := Option.bind_eq_some_iff.1 hst
          cases hst
          exact ⟨by dsimp only; omega, nofun⟩
      · rw [if_neg hrk] at hst
        cases hst
        exact ⟨by dsimp only; omega, fun h j x hj hx => h2 h j x (by omega) hx⟩

theorem searchInitDbg_eq {ds : DataSet F} (hi : ds.isInitialized = true) {len : Nat} (h : 0 < len) (search : Option Arr) : searchInitDbg ds len search = searchInit len search := by
  unfold searchInitDbg
  rw [asrtM_bind hi, asrtM_bind h]

theorem nnSearchDbg_eq {ds : DataSet F} (hi : ds.isInitialized = true) {o : SearchObj} {queries : Option Arr} {L Q : List Nat} (hs : ArrHolds o.search L) (hl : L.length = o.len)
    (hsr : ∀ x ∈ L, x < ds.n) (hq : ArrHolds queries Q) (hqr : ∀ x ∈ Q, x < ds.n) (h2 : 0 < Q.length) {k : Nat} (hk0 : 0 < k) (hk : k ≤ L.length) {rs : Bool} {radius : F}
    (hrad : rs = true → FloatOps.lt FloatOps.zero radius = true) {oq : OutQ} (ho : rs = true → oq ≠ .null) (hal : oq = .same → queries ≠ none) (nn : Buf Nat) :
    nnSearchDbg ds o Q.length queries k rs radius oq nn = nnSearch ds o Q.length queries k rs radius oq nn := by
  unfold nnSearchDbg nnSearch asrtRadius
  rw [asrtM_bind hi, asrtM_bind (by omega), asrtM_bind h2, asrtM_bind hk0, asrtM_bind (by omega), asrtM_bind hrad]
  rw [← hl]
  congr 1
  funext b
  cases b with
  | none => rfl
  | some dl =>
    dsimp only
    rw [nnSearchKDbg_eq hs hsr hq hqr hk radius ho hal]

end Scc
