/-
The ANN back end without its leaks works as documented, if the ANN library does.
-/
import Verif.Spec.Ann
import Verif.Proofs.DistSearch

namespace Scc

variable {F : Type} [FloatOps F]

theorem annLoop_spec {queries : Option Arr} {Q : List Nat} (hqs : ArrHolds queries Q) {k : Nat} (oq : OutQ) {nn : Buf Nat} (hn : Q.length * k ≤ nn.len) (ho : oq = .null ∨ Q.length ≤ oq.len queries)
    (hal : oq = .same → queries ≠ none) (ans : Nat → Option (List Nat)) (hans : ∀ q ∈ Q, ∀ l, ans q = some l → l.length = k) {step : Nat → Nat → Buf Nat → Option (Bool × Buf Nat)}
    (hstep : ∀ q ∈ Q, ∀ base nn', nn'.len = nn.len → base + k ≤ nn'.len → Wp (step q base nn') fun r => r.2.len = nn'.len ∧ (∀ i, i < base → r.2.get i = nn'.get i) ∧
      (r.1 = true → ∃ l, ans q = some l ∧ ∀ j x, l[j]? = some x → r.2.get (base + j) = some x) ∧ (r.1 = false → ans q = none)) :
    Wp (annLoop Q.length queries k oq nn step) fun out => out.nn.len = nn.len ∧ out.outQ.len = oq.len queries ∧ out.Matches oq k (Q.map fun q => (q, ans q)) := by
  unfold annLoop
  rw [wp_bind]
  have hlen0 : (outQBuf queries oq).len = oq.len queries := by cases oq <;> rfl
  have htake : ∀ i, ((Q.take i).map fun q => (q, ans q)).length ≤ i := fun i => by rw [List.length_map, List.length_take]; exact Nat.min_le_left _ _
  refine wp_forLt
    (fun i st => ∃ out : NNOut, st.1 = out.numOk ∧ st.2.1 = out.outQ ∧ st.2.2 = out.nn ∧ out.nn.len = nn.len ∧ out.outQ.len = oq.len queries ∧
      out.Matches oq k ((Q.take i).map fun q => (q, ans q)) ∧ (oq = .same → ∀ j x : Nat, i ≤ j → Q[j]? = some x → out.outQ.get j = some x))
    (Nat.zero_le _) ?_ ?_ ?_
  · refine ⟨⟨0, outQBuf queries oq, nn⟩, rfl, rfl, rfl, rfl, hlen0, ⟨by simp [answered], ?_, ?_⟩, ?_⟩
    · intro _ i p hp; simp [answered] at hp
    · intro i p hp; simp [answered] at hp
    · rintro rfl j x - hx
      cases hqq : queries with
      | none => exact absurd hqq (hal rfl)
      | some a =>
        rw [hqq] at hqs
        exact hqs j x hx
  · rintro i ⟨numOk, oqb, nnb⟩ - hiQ ⟨out, rfl, rfl, rfl, h2, h3, h4, h5⟩
    dsimp only
    have hqi : queryAt queries oq out.outQ i = some Q[i] := by
      have hg := hqs.get (List.getElem?_eq_getElem hiQ)
      unfold queryAt
      split
      · exact h5 rfl i _ le_rfl (List.getElem?_eq_getElem hiQ)
      · exact hg
    rw [wp_bind, wp_eq hqi, wp_bind]
    set res := (Q.take i).map fun q => (q, ans q) with hres
    have hlt : (answered res).length ≤ i := (length_answered_le _).trans (htake i)
    have hroom : out.numOk * k + k ≤ out.nn.len := by
      rw [h4.numOk, h2]
      calc (answered res).length * k + k = ((answered res).length + 1) * k := by ring
        _ ≤ Q.length * k := Nat.mul_le_mul_right _ (by omega)
        _ ≤ nn.len := hn
    have hmem : Q[i] ∈ Q := List.getElem_mem hiQ
    have hnext : (Q.take (i + 1)).map (fun q => (q, ans q)) = res ++ [(Q[i], ans Q[i])] := by
      rw [hres, List.take_succ_eq_append_getElem hiQ, List.map_append]; rfl
    refine (hstep Q[i] hmem (out.numOk * k) out.nn h2 hroom).mono ?_
    rintro ⟨ok, nn'⟩ ⟨g1, g2, g3, g4⟩
    dsimp only at g1 g2 g3 g4 ⊢
    have hold : ∀ (i' : Nat) (p : Nat × List Nat), (answered res)[i']? = some p → ∀ (j x : Nat), p.2[j]? = some x → nn'.get (i' * k + j) = some x := by
      intro i' p hp j x hx
      have hi' : i' < (answered res).length := by
        by_contra hcc; rw [List.getElem?_eq_none (by omega)] at hp; cases hp
      have hpk : p.2.length = k := by
        obtain ⟨p', hp', he⟩ := List.mem_filterMap.1 (List.mem_of_getElem? hp)
        obtain ⟨q, hq, rfl⟩ := List.mem_map.1 hp'
        obtain ⟨l, hl, rfl⟩ := Option.map_eq_some_iff.1 he
        exact hans q (List.mem_of_mem_take hq) l hl
      have hj : j < k := by
        by_contra hcc; rw [List.getElem?_eq_none (by omega)] at hx; cases hx
      rw [g2]
      · exact h4.neighbors i' p hp j x hx
      · rw [h4.numOk]
        calc i' * k + j < i' * k + k := by omega
          _ = (i' + 1) * k := by ring
          _ ≤ (answered res).length * k := Nat.mul_le_mul_right _ hi'
    cases ok with
    | false =>
      rw [if_neg (by simp), wp_pure]
      have hnone := g4 rfl
      have hres2 : answered ((Q.take (i + 1)).map fun q => (q, ans q)) = answered res := by
        rw [hnext, answered_append, hnone]; simp [answered]
      refine ⟨⟨out.numOk, out.outQ, nn'⟩, rfl, rfl, rfl, g1.trans h2, h3, ⟨?_, ?_, ?_⟩, ?_⟩
      · rw [hres2]; exact h4.numOk
      · rw [hres2]; exact h4.queries
      · rw [hres2]; exact hold
      · intro hx j x hj hjx; exact h5 hx j x (by omega) hjx
    | true =>
      obtain ⟨l, hl, hw⟩ := g3 rfl
      rw [if_pos rfl]
      have hres2 : answered ((Q.take (i + 1)).map fun q => (q, ans q)) = answered res ++ [(Q[i], l)] := by
        rw [hnext, answered_append, hl]; rfl
      have hlast : ∀ {i' : Nat} {p : Nat × List Nat}, (answered res ++ [(Q[i], l)])[i']? = some p → i' < (answered res).length ∧ (answered res)[i']? = some p ∨ i' = out.numOk ∧ p = (Q[i], l) := by
        intro i' p hp
        by_cases hi' : i' < (answered res).length
        · rw [List.getElem?_append_left hi'] at hp
          exact Or.inl ⟨hi', hp⟩
        · rw [List.getElem?_append_right (by omega)] at hp
          have h0 : i' - (answered res).length = 0 := by
            by_contra hcc; rw [List.getElem?_eq_none (by simp; omega)] at hp; cases hp
          rw [h0] at hp
          simp only [List.getElem?_cons_zero, Option.some.injEq] at hp
          exact Or.inr ⟨by rw [h4.numOk]; omega, hp.symm⟩
      have hnew : ∀ (i' : Nat) (p : Nat × List Nat), (answered ((Q.take (i + 1)).map fun q => (q, ans q)))[i']? = some p → ∀ (j x : Nat), p.2[j]? = some x → nn'.get (i' * k + j) = some x := by
        intro i' p hp j x hx
        rw [hres2] at hp
        rcases hlast hp with ⟨-, hp⟩ | ⟨rfl, rfl⟩
        · exact hold i' p hp j x hx
        · exact hw j x hx
      have hcount : out.numOk + 1 = (answered ((Q.take (i + 1)).map fun q => (q, ans q))).length := by rw [hres2]; simp [h4.numOk]
      have hwrite : oq ≠ .null → Wp (out.outQ.set out.numOk Q[i]) fun b => ∃ out' : NNOut, out.numOk + 1 = out'.numOk ∧ b = out'.outQ ∧ nn' = out'.nn ∧ out'.nn.len = nn.len ∧ out'.outQ.len = oq.len queries ∧
          out'.Matches oq k ((Q.take (i + 1)).map fun q => (q, ans q)) ∧ (oq = .same → ∀ j x : Nat, i + 1 ≤ j → Q[j]? = some x → out'.outQ.get j = some x) := by
        intro hnull
        have hoq : out.numOk < out.outQ.len := by
          rw [h3, h4.numOk]
          have := ho.resolve_left hnull
          omega
        rw [Buf.wp_set]
        refine ⟨hoq, ⟨out.numOk + 1, out.outQ.upd out.numOk Q[i], nn'⟩, rfl, rfl, rfl, g1.trans h2, h3, ⟨hcount, ?_, hnew⟩, ?_⟩
        · intro hx i' p hp
          rw [hres2] at hp
          rcases hlast hp with ⟨hi', hp⟩ | ⟨rfl, rfl⟩
          · rw [Buf.get_upd_ne _ _ (by rw [h4.numOk]; omega)]
            exact h4.queries hx i' p hp
          · exact Buf.get_upd_self _ _ hoq
        · intro hx j x hj hjx
          rw [Buf.get_upd_ne _ _ (by rw [h4.numOk]; omega)]
          exact h5 hx j x (by omega) hjx
      cases oq with
      | null =>
        dsimp only
        rw [wp_pure]
        refine ⟨⟨out.numOk + 1, out.outQ, nn'⟩, rfl, rfl, rfl, g1.trans h2, h3, ⟨hcount, fun hx => absurd rfl hx, hnew⟩, nofun⟩
      | same =>
        dsimp only
        rw [wp_bind]
        refine (hwrite nofun).mono fun b hb => ?_
        rw [wp_pure]; exact hb
      | buf b =>
        dsimp only
        rw [wp_bind]
        refine (hwrite nofun).mono fun b hb => ?_
        rw [wp_pure]; exact hb
  · rintro ⟨numOk, oqb, nnb⟩ ⟨out, rfl, rfl, rfl, h2, h3, h4, -⟩
    dsimp only
    rw [wp_pure]
    rw [List.take_length] at h4
    exact ⟨h2, h3, h4⟩

theorem readRow_eq {ds : DataSet F} (hc : ds.Complete) {j : Nat} (hj : j < ds.n) : readRow ds j = some () := by
  have : Wp (readRow ds j) fun _ => True := by
    unfold readRow
    refine wp_forNe (fun _ _ => True) (Nat.zero_le _) trivial ?_ (fun _ _ => trivial)
    intro t _ _ ht _
    obtain ⟨x, hx⟩ := hc (j * ds.dims + t) (by
      calc j * ds.dims + t < j * ds.dims + ds.dims := by omega
        _ = (j + 1) * ds.dims := by ring
        _ ≤ ds.n * ds.dims := Nat.mul_le_mul_right _ hj)
    rw [wp_bind, wp_eq hx, wp_pure]
    trivial
  obtain ⟨_, h, _⟩ := this
  exact h

/-- Writing `k` values from `base` on. -/
theorem writeRow_spec {k base : Nat} {nn : Buf Nat} {f : Nat → Option Nat} {l : List Nat} (hl : l.length = k) (hf : ∀ j x, l[j]? = some x → f j = some x) (hroom : base + k ≤ nn.len) :
    Wp (forLt 0 k nn fun j nn => do let x ← f j; nn.set (base + j) x) fun nn' => nn'.len = nn.len ∧ (∀ i, i < base → nn'.get i = nn.get i) ∧ ∀ j x, l[j]? = some x → nn'.get (base + j) = some x := by
  refine wp_forLt (fun i nn' => nn'.len = nn.len ∧ (∀ i, i < base → nn'.get i = nn.get i) ∧ ∀ j x, j < i → l[j]? = some x → nn'.get (base + j) = some x) (Nat.zero_le _)
    ⟨rfl, fun _ _ => rfl, fun _ _ h => absurd h (Nat.not_lt_zero _)⟩ ?_ ?_
  · rintro i nn' - hi ⟨h1, h2, h3⟩
    rw [wp_bind, wp_eq (hf i l[i] (List.getElem?_eq_getElem (by omega))), Buf.wp_set]
    refine ⟨by omega, h1, fun j hj => ?_, fun j x hj hx => ?_⟩
    · rw [Buf.get_upd_ne _ _ (by omega)]; exact h2 j hj
    · by_cases hji : j = i
      · subst hji
        rw [List.getElem?_eq_getElem (by omega), Option.some.injEq] at hx
        subst hx
        exact Buf.get_upd_self _ _ (by omega)
      · rw [Buf.get_upd_ne _ _ (by omega)]
        exact h3 j x (by omega) hx
  · rintro nn' ⟨h1, h2, h3⟩
    refine ⟨h1, h2, fun j x hx => h3 j x ?_ hx⟩
    by_contra hcc
    rw [List.getElem?_eq_none (by omega)] at hx; cases hx

/-- The answer of the wrapper in terms of points. -/
def annResult (lib : AnnLib F) (ds : DataSet F) (set : List Nat) (k : Nat) (rs : Bool) (rsq : F) (q : Nat) : Option (List Nat) :=
  if k ≤ (annAnswer lib ds set k rs rsq q).1 then (annAnswer lib ds set k rs rsq q).2.mapM (set[·]?) else none

theorem pointsAt_mapM {set idx l : List Nat} (h : PointsAt set idx l) : idx.mapM (set[·]?) = some l := by
  unfold PointsAt at h
  induction idx generalizing l with
  | nil =>
    cases l with
    | nil => rfl
    | cons a l => cases h
  | cons p idx ih =>
    cases l with
    | nil => cases h
    | cons a l =>
      simp only [List.map_cons, List.cons.injEq] at h
      rw [List.mapM_cons, h.1, ih h.2]
      rfl

theorem pointsAt_get {set idx l : List Nat} (h : PointsAt set idx l) {j x : Nat} (hx : l[j]? = some x) : ∃ p, idx[j]? = some p ∧ set[p]? = some x := by
  have h' := congrArg (fun m => m[j]?) h
  simp only [List.getElem?_map, hx, Option.map_some] at h'
  obtain ⟨p, hp, he⟩ := Option.map_eq_some_iff.1 h'
  exact ⟨p, hp, he⟩

theorem pointsAt_length {set idx l : List Nat} (h : PointsAt set idx l) : idx.length = l.length := by
  have := congrArg List.length h
  simpa using this

theorem pointsAt_subset {set idx l : List Nat} (h : PointsAt set idx l) : l ⊆ set := by
  intro x hx
  obtain ⟨j, hj, rfl⟩ := List.getElem_of_mem hx
  obtain ⟨p, -, he⟩ := pointsAt_get h (List.getElem?_eq_getElem hj)
  exact List.mem_of_getElem? he

/-- What the contract of the library says about an answer. -/
theorem annResult_spec {lib : AnnLib F} {ds : DataSet F} {A : Criterion F} (hA : AnnOk lib ds A) {set : List Nat} (hnd : set.Nodup) (hset : ∀ x ∈ set, x < ds.n) {q k : Nat} (hq : q < ds.n) (hk : 0 < k)
    (hks : k ≤ set.length) (rs : Bool) (r : F) :
    (annAnswer lib ds set k rs (FloatOps.mul r r) q).2.length = k ∧ A set k (if rs then some r else none) q (annResult lib ds set k rs (FloatOps.mul r r) q) ∧
    WellFormed set k (if rs then some r else none) q (annResult lib ds set k rs (FloatOps.mul r r) q) ∧
    ∀ l, annResult lib ds set k rs (FloatOps.mul r r) q = some l → PointsAt set (annAnswer lib ds set k rs (FloatOps.mul r r) q).2 l := by
  have hwf : ∀ l R, l.length = k → l.Nodup → l ⊆ set → WellFormed (F := F) set k R q (some l) := by
    intro l R h1 h2 h3
    refine ⟨nofun, ?_⟩
    rintro l' h
    cases h
    exact ⟨h1, h2, h3⟩
  unfold annResult annAnswer
  cases rs with
  | false =>
    obtain ⟨l, h1, h2, h3, h4⟩ := hA.kSearch set q k hnd hset hq hk hks
    simp only [Bool.false_eq_true, if_false, le_refl, if_true, pointsAt_mapM h1]
    refine ⟨(pointsAt_length h1).trans h2, h4, hwf l _ h2 h3 (pointsAt_subset h1), ?_⟩
    intro l' h
    cases h
    exact h1
  | true =>
    obtain ⟨h1, h2⟩ := hA.frSearch set q k r hnd hset hq hk hks
    simp only [if_true]
    by_cases hf : k ≤ (lib.frSearch ds set q (FloatOps.mul r r) k).1
    · rw [if_pos hf] at h2
      obtain ⟨l, h2, h3, h4⟩ := h2
      rw [if_pos hf, pointsAt_mapM h2]
      refine ⟨h1, h4, hwf l _ ((pointsAt_length h2).symm.trans h1) h3 (pointsAt_subset h2), ?_⟩
      intro l' h
      cases h
      exact h2
    · rw [if_neg hf] at h2
      rw [if_neg hf]
      exact ⟨h1, h2, ⟨nofun, nofun⟩, nofun⟩

theorem ArrHolds.at {a : Option Arr} {L : List Nat} (h : ArrHolds a L) {i x : Nat} (hx : L[i]? = some x) : idxGet a i = some x := h.get hx

section step

variable {lib : AnnLib F} {ds : DataSet F} {A : Criterion F} (hA : AnnOk lib ds A) (hc : ds.Complete) {set : List Nat} (hnd : set.Nodup) (hset : ∀ x ∈ set, x < ds.n) {k : Nat} (hk : 0 < k)
  (hks : k ≤ set.length) (rs : Bool) (r : F)

include hA hc hnd hset hk hks

theorem annStep_spec {search : Option Arr} (hs : ArrHolds search set) {q : Nat} (hq : q < ds.n) (base : Nat) (nn : Buf Nat) (hroom : base + k ≤ nn.len) :
    Wp (annStep lib ds set search k rs (FloatOps.mul r r) q base nn) fun s => s.2.len = nn.len ∧ (∀ i, i < base → s.2.get i = nn.get i) ∧
      (s.1 = true → ∃ l, annResult lib ds set k rs (FloatOps.mul r r) q = some l ∧ ∀ j x, l[j]? = some x → s.2.get (base + j) = some x) ∧
      (s.1 = false → annResult lib ds set k rs (FloatOps.mul r r) q = none) := by
  obtain ⟨h1, h2, h3, h4⟩ := annResult_spec hA hnd hset hq hk hks rs r
  unfold annStep
  rw [wp_bind, wp_eq (readRow_eq hc hq)]
  dsimp only
  by_cases hf : k ≤ (annAnswer lib ds set k rs (FloatOps.mul r r) q).1
  · rw [if_pos hf, wp_bind]
    have hsome : ∃ l, annResult lib ds set k rs (FloatOps.mul r r) q = some l := by
      by_contra hcc
      have hn : annResult lib ds set k rs (FloatOps.mul r r) q = none := by
        cases hr : annResult lib ds set k rs (FloatOps.mul r r) q with
        | none => rfl
        | some l => exact absurd ⟨l, hr⟩ hcc
      cases rs with
      | false => exact h3.1 rfl hn
      | true =>
        obtain ⟨g1, g2⟩ := hA.frSearch set q k r hnd hset hq hk hks
        rw [if_pos (show k ≤ (lib.frSearch ds set q (FloatOps.mul r r) k).1 from hf)] at g2
        obtain ⟨l, g2, -⟩ := g2
        refine hcc ⟨l, ?_⟩
        unfold annResult
        rw [if_pos hf]
        exact pointsAt_mapM g2
    obtain ⟨l, hl⟩ := hsome
    have hp := h4 l hl
    have := writeRow_spec (f := fun j => (annAnswer lib ds set k rs (FloatOps.mul r r) q).2[j]? >>= idxGet search) (l := l) (base := base) (nn := nn) (k := k) ((pointsAt_length hp).symm.trans h1)
      (fun j x hx => by
        obtain ⟨p, hp1, hp2⟩ := pointsAt_get hp hx
        show (annAnswer lib ds set k rs (FloatOps.mul r r) q).2[j]? >>= idxGet search = some x
        rw [hp1]
        exact hs.get hp2) hroom
    simp only [bind_assoc] at this
    refine this.mono fun nn' h => ?_
    rw [wp_pure]
    exact ⟨h.1, h.2.1, fun _ => ⟨l, hl, h.2.2⟩, nofun⟩
  · rw [if_neg hf, wp_pure]
    refine ⟨rfl, fun _ _ => rfl, nofun, fun _ => ?_⟩
    unfold annResult
    rw [if_neg hf]

theorem annDirectStep_spec (hseq : set = List.range set.length) {q : Nat} (hq : q < ds.n) (base : Nat) (nn : Buf Nat) (hroom : base + k ≤ nn.len) :
    Wp (annDirectStep lib ds set k rs (FloatOps.mul r r) q base nn) fun s => s.2.len = nn.len ∧ (∀ i, i < base → s.2.get i = nn.get i) ∧
      (s.1 = true → ∃ l, annResult lib ds set k rs (FloatOps.mul r r) q = some l ∧ ∀ j x, l[j]? = some x → s.2.get (base + j) = some x) ∧
      (s.1 = false → annResult lib ds set k rs (FloatOps.mul r r) q = none) := by
  obtain ⟨h1, h2, h3, h4⟩ := annResult_spec hA hnd hset hq hk hks rs r
  unfold annDirectStep
  rw [wp_bind, wp_eq (readRow_eq hc hq)]
  dsimp only
  rw [wp_bind]
  refine (writeRow_spec (f := fun j => (annAnswer lib ds set k rs (FloatOps.mul r r) q).2[j]?) (l := (annAnswer lib ds set k rs (FloatOps.mul r r) q).2) h1 (fun _ _ h => h) hroom).mono fun nn' h => ?_
  rw [wp_pure]
  refine ⟨h.1, h.2.1, fun hd => ?_, fun hd => ?_⟩
  · have hf := of_decide_eq_true hd
    have hl : ∃ l, PointsAt set (annAnswer lib ds set k rs (FloatOps.mul r r) q).2 l := by
      cases rs with
      | false =>
        obtain ⟨l, g1, -⟩ := hA.kSearch set q k hnd hset hq hk hks
        exact ⟨l, g1⟩
      | true =>
        obtain ⟨g1, g2⟩ := hA.frSearch set q k r hnd hset hq hk hks
        rw [if_pos (show k ≤ (lib.frSearch ds set q (FloatOps.mul r r) k).1 from hf)] at g2
        obtain ⟨l, g2, -⟩ := g2
        exact ⟨l, g2⟩
    obtain ⟨l, hl⟩ := hl
    refine ⟨l, ?_, fun j x hx => ?_⟩
    · unfold annResult
      rw [if_pos hf]
      exact pointsAt_mapM hl
    · obtain ⟨p, hp1, hp2⟩ := pointsAt_get hl hx
      have : p = x := by
        rw [hseq] at hp2
        obtain ⟨hlt, he⟩ := List.getElem?_eq_some_iff.1 hp2
        rw [List.getElem_range] at he
        exact he
      subst this
      exact h.2.2 j p hp1
  · have hf := of_decide_eq_false hd
    unfold annResult
    rw [if_neg hf]

end step

/-! ### The wrapper without its leaks works as documented -/

/-- A search object of the wrapper. -/
def annIsNN (n : Nat) (o : AnnObj) (set : List Nat) (own : Multiset Nat) (ids : List Nat) : Prop :=
  own = {o.id} + ({o.points} + {o.tree}) ∧ ArrHolds o.search set ∧ o.set = set ∧ set.Nodup ∧ (∀ x ∈ set, x < n) ∧ ids = arrIds o.search

theorem annPoints_spec {search : Option Arr} {L : List Nat} (hs : ArrHolds search L) : Wp (annPoints L.length search (Buf.raw L.length)) fun p => p.read L.length = some L := by
  unfold annPoints
  refine wp_forLt (fun i p => p.len = L.length ∧ ∀ j, j < i → p.get j = L[j]?) (Nat.zero_le _) ⟨rfl, fun _ h => absurd h (Nat.not_lt_zero _)⟩ ?_ ?_
  · rintro i p - hi ⟨h1, h2⟩
    rw [wp_bind, wp_eq (hs.get (List.getElem?_eq_getElem hi)), Buf.wp_set]
    refine ⟨by omega, h1, fun j hj => ?_⟩
    by_cases hji : j = i
    · subst hji
      rw [Buf.get_upd_self _ _ (by omega), List.getElem?_eq_getElem hi]
    · rw [Buf.get_upd_ne _ _ (by omega)]
      exact h2 j (by omega)
  · rintro p ⟨h1, h2⟩
    exact Buf.read_eq_some.2 ⟨rfl, h2⟩

theorem annTree_spec {ds : DataSet F} (hc : ds.Complete) {L : List Nat} (hr : ∀ x ∈ L, x < ds.n) {p : Buf Nat} (hp : p.read L.length = some L) : annTree ds L.length p = some L := by
  have : Wp (L.foldlM (fun (_ : Unit) j => readRow ds j) ()) fun _ => True := by
    refine (wp_foldlM (fun _ _ => True) L () trivial ?_).mono fun _ _ => trivial
    intro pre a post s he _
    rw [wp_eq (readRow_eq hc (hr a (by rw [he]; simp)))]
    trivial
  obtain ⟨_, h, _⟩ := this
  unfold annTree
  rw [hp]
  show (L.foldlM (fun (_ : Unit) j => readRow ds j) () >>= fun _ => pure L) = _
  rw [h]
  rfl

theorem length_le_of_range {L : List Nat} {n : Nat} (hnd : L.Nodup) (hr : ∀ x ∈ L, x < n) : L.length ≤ n := by
  have := (hnd.subperm fun x hx => List.mem_range.2 (hr x hx) : L.Subperm (List.range n)).length_le
  rwa [List.length_range] at this

theorem annInitTidy_spec {ds : DataSet F} (hc : ds.Complete) {arr : Option Arr} {L : List Nat} (w : World) (ha : ArrHolds arr L) (hnd : L.Nodup) (hr : ∀ x ∈ L, x < ds.n)
    (hl : ∀ i ∈ arrIds arr, i ∈ w.live) :
    WpM (annInitTidy ds L.length arr) w fun r w' => w'.fails = w.fails ∧ w'.err = w.err ∧
      match r with
      | none => w'.live = w.live ∧ (¬ w.NoFail ∨ intMax < ds.n)
      | some o => ∃ own, annIsNN ds.n o L own (arrIds arr) ∧ w'.live = own + w.live := by
  unfold annInitTidy
  by_cases hbig : intMax < L.length
  · rw [if_pos hbig, wpM_pure]
    exact ⟨rfl, rfl, rfl, Or.inr (lt_of_lt_of_le hbig (length_le_of_range hnd hr))⟩
  rw [if_neg hbig, wpM_bind]
  refine wpM_alloc (fun w' g1 g2 g3 g4 => ?_) (fun i w1 g2 g3 g4 => ?_)
  · simp only [wpM_pure]
    exact ⟨g2, g4, g3, Or.inl g1⟩
  dsimp only
  rw [wpM_bind]
  refine wpM_alloc (fun w' f1 f2 f3 f4 => ?_) (fun j w2 f2 f3 f4 => ?_)
  · dsimp only
    rw [wpM_bind]
    refine wpM_freeId w.live (f3.trans g3) fun w'' e1 e2 e3 => ?_
    rw [wpM_pure]
    exact ⟨e1.trans (f2.trans g2), e3.trans (f4.trans g4), e2, Or.inl fun hn => f1 fun t b => by rw [g2]; exact hn t b⟩
  dsimp only
  rw [wpM_bind, wpM_useK]
  refine ⟨?_, (annPoints_spec ha).mono fun p hp => ?_⟩
  · intro x hx
    rw [f3, g3]
    simp only [Multiset.mem_add, Multiset.mem_singleton]
    rcases List.mem_cons.1 hx with rfl | hx
    · exact Or.inr (Or.inl rfl)
    · exact Or.inr (Or.inr (hl x hx))
  rw [wpM_bind]
  refine wpM_alloc (fun w' e1 e2 e3 e4 => ?_) (fun t w3 e2 e3 e4 => ?_)
  · dsimp only
    rw [wpM_bind]
    refine wpM_freeId ({j} + w.live) (by rw [e3, f3, g3, add_left_comm]) fun w4 d1 d2 d3 => ?_
    rw [wpM_bind]
    refine wpM_freeId w.live d2 fun w5 c1 c2 c3 => ?_
    rw [wpM_pure]
    exact ⟨c1.trans (d1.trans (e2.trans (f2.trans g2))), c3.trans (d3.trans (e4.trans (f4.trans g4))), c2, Or.inl fun hn => e1 fun t b => by rw [f2, g2]; exact hn t b⟩
  dsimp only
  rw [wpM_bind, wpM_useK]
  refine ⟨?_, ?_⟩
  · intro x hx
    rw [e3, f3, g3]
    simp only [List.mem_cons, List.not_mem_nil, or_false] at hx
    simp only [Multiset.mem_add, Multiset.mem_singleton]
    rcases hx with rfl | rfl
    · exact Or.inr (Or.inr (Or.inl rfl))
    · exact Or.inl rfl
  rw [wp_eq (annTree_spec hc hr hp), wpM_pure]
  refine ⟨e2.trans (f2.trans g2), e4.trans (f4.trans g4), _, ⟨rfl, ha, rfl, hnd, hr, rfl⟩, ?_⟩
  show w3.live = {j} + ({i} + {t}) + w.live
  rw [e3, f3, g3, add_assoc ({j} : Multiset Nat), add_assoc ({i} : Multiset Nat), add_left_comm ({t} : Multiset Nat), add_left_comm ({t} : Multiset Nat)]

/-- The queries after an earlier pass over them. -/
theorem carry_spec {queries : Option Arr} {Q : List Nat} (hqs : ArrHolds queries Q) (oq : OutQ) {b : Buf Nat} (hb : b.len = oq.len queries) (hg : oq ≠ .null → ∀ i x, Q[i]? = some x → b.get i = some x) :
    ArrHolds (carryQueries queries oq b) Q ∧ arrIds (carryQueries queries oq b) = arrIds queries ∧ (carryOut oq b).len (carryQueries queries oq b) = oq.len queries ∧ (carryOut oq b = .null ↔ oq = .null) ∧
    (carryOut oq b = .same → carryQueries queries oq b ≠ none ∨ queries = none) := by
  cases oq with
  | null => exact ⟨hqs, rfl, rfl, Iff.rfl, nofun⟩
  | buf c => exact ⟨hqs, rfl, hb, ⟨nofun, nofun⟩, nofun⟩
  | same =>
    cases queries with
    | none => exact ⟨hqs, rfl, rfl, Iff.rfl, fun _ => Or.inr rfl⟩
    | some a => exact ⟨fun i x hx => hg nofun i x hx, rfl, hb, Iff.rfl, fun _ => Or.inl nofun⟩

theorem matches_carry {out : NNOut} {oq : OutQ} {b : Buf Nat} {k : Nat} {res : List (Nat × Option (List Nat))} (h : out.Matches (carryOut oq b) k res) : out.Matches oq k res := by
  cases oq with
  | null => exact h
  | same => exact h
  | buf c => exact ⟨h.numOk, fun _ => h.queries nofun, h.neighbors⟩

section search

variable {lib : AnnLib F} {ds : DataSet F} {A : Criterion F} (hA : AnnOk lib ds A) (hc : ds.Complete)

/-- What a search is to deliver. -/
def AnnPost (lib : AnnLib F) (ds : DataSet F) (set Q : List Nat) (k : Nat) (rs : Bool) (radius : F) (olen : Nat) (oq : OutQ) (nlen : Nat) (w : World) (r : Option NNOut) (w' : World) : Prop :=
  w'.fails = w.fails ∧ w'.err = w.err ∧ w'.live = w.live ∧
    match r with
    | none => ¬ w.NoFail ∨ intMax < ds.n
    | some out => out.nn.len = nlen ∧ out.outQ.len = olen ∧ out.Matches oq k (Q.map fun q => (q, annResult lib ds set k rs (FloatOps.mul radius radius) q))

include hA hc

theorem annResult_length {set : List Nat} (hnd : set.Nodup) (hset : ∀ x ∈ set, x < ds.n) {q k : Nat} (hq : q < ds.n) (hk : 0 < k) (hks : k ≤ set.length) (rs : Bool) (r : F) {l : List Nat}
    (hl : annResult lib ds set k rs (FloatOps.mul r r) q = some l) : l.length = k := by
  obtain ⟨h1, -, -, h4⟩ := annResult_spec hA hnd hset hq hk hks rs r
  rw [← pointsAt_length (h4 l hl)]
  exact h1

theorem annGeneralTidy_spec {o : AnnObj} {set : List Nat} {own : Multiset Nat} {ids : List Nat} {lenQ : Nat} {queries : Option Arr} {Q : List Nat} {k : Nat} (rs : Bool) (radius : F) {oq : OutQ} {nn : Buf Nat}
    {w : World} (ho : annIsNN ds.n o set own ids) (hown : own ≤ w.live) (hcall : NNCall ds.n set w ids lenQ queries Q k rs oq nn) :
    WpM (annGeneralTidy lib ds o lenQ queries k rs radius oq nn) w (AnnPost lib ds set Q k rs radius (oq.len queries) oq nn.len w) := by
  obtain ⟨rfl, h1, h2, h3, h4, rfl⟩ := ho
  unfold annGeneralTidy
  rw [wpM_bind]
  refine wpM_alloc (fun w' g1 g2 g3 g4 => ?_) (fun i w1 g2 g3 g4 => ?_)
  · simp only [wpM_pure]
    exact ⟨g2, g4, g3, Or.inl g1⟩
  dsimp only
  rw [wpM_bind]
  refine wpM_alloc (fun w' f1 f2 f3 f4 => ?_) (fun j w2 f2 f3 f4 => ?_)
  · dsimp only
    rw [wpM_bind]
    refine wpM_freeId w.live (f3.trans g3) fun w'' e1 e2 e3 => ?_
    rw [wpM_pure]
    exact ⟨e1.trans (f2.trans g2), e3.trans (f4.trans g4), e2, Or.inl fun hn => f1 fun t b => by rw [g2]; exact hn t b⟩
  dsimp only
  rw [wpM_bind, wpM_useK]
  refine ⟨?_, ?_⟩
  · intro x hx
    rw [f3, g3]
    simp only [AnnObj.ids, List.cons_append, List.mem_cons, List.mem_append] at hx
    simp only [Multiset.mem_add, Multiset.mem_singleton]
    rcases hx with rfl | rfl | rfl | rfl | rfl | hx | hx
    · exact Or.inr (Or.inl rfl)
    · exact Or.inl rfl
    · exact Or.inr (Or.inr (Multiset.mem_of_le hown (by simp)))
    · exact Or.inr (Or.inr (Multiset.mem_of_le hown (by simp)))
    · exact Or.inr (Or.inr (Multiset.mem_of_le hown (by simp)))
    · exact Or.inr (Or.inr (hcall.live x hx))
    · exact Or.inr (Or.inr (hcall.qlive x hx))
  · have := annLoop_spec (k := k) (nn := nn) (step := annStep lib ds o.set o.search k rs (FloatOps.mul radius radius)) hcall.holds oq (by rw [hcall.len]; exact hcall.room) (by rw [hcall.len]; exact hcall.oroom) hcall.notNull
      (annResult lib ds set k rs (FloatOps.mul radius radius)) (fun q hq l hl => annResult_length hA hc h3 h4 (hcall.range q hq) hcall.kpos hcall.kle rs radius hl)
      (fun q hq base nn' _ hroom => by rw [h2]; exact annStep_spec hA hc h3 h4 hcall.kpos hcall.kle rs radius h1 (hcall.range q hq) base nn' hroom)
    rw [hcall.len] at this
    refine this.mono ?_
    rintro out ⟨k1, k2, k3⟩
    rw [wpM_bind]
    refine wpM_freeId ({j} + w.live) (by rw [f3, g3, add_left_comm]) fun w4 d1 d2 d3 => ?_
    rw [wpM_bind]
    refine wpM_freeId w.live d2 fun w5 c1 c2 c3 => ?_
    rw [wpM_pure]
    exact ⟨c1.trans (d1.trans (f2.trans g2)), c3.trans (d3.trans (f4.trans g4)), c2, k1, k2, k3⟩

theorem annSearchTidy_spec (direct : Bool) {o : AnnObj} {set : List Nat} {own : Multiset Nat} {ids : List Nat} {lenQ : Nat} {queries : Option Arr} {Q : List Nat} {k : Nat} (rs : Bool) (radius : F) {oq : OutQ}
    {nn : Buf Nat} {w : World} (ho : annIsNN ds.n o set own ids) (hown : own ≤ w.live) (hcall : NNCall ds.n set w ids lenQ queries Q k rs oq nn) :
    WpM (annSearchTidy direct lib ds o lenQ queries k rs radius oq nn) w (AnnPost lib ds set Q k rs radius (oq.len queries) oq nn.len w) := by
  have ho' := ho
  obtain ⟨rfl, h1, h2, h3, h4, rfl⟩ := ho
  unfold annSearchTidy
  by_cases hbig : intMax < k
  · rw [if_pos hbig, wpM_pure]
    exact ⟨rfl, rfl, rfl, Or.inr (lt_of_lt_of_le hbig (hcall.kle.trans (length_le_of_range h3 h4)))⟩
  rw [if_neg hbig]
  by_cases hd : (direct && o.search.isNone) = true
  · rw [if_pos hd, wpM_bind]
    have hnone : o.search = none := by
      rw [Bool.and_eq_true] at hd
      exact Option.isNone_iff_eq_none.1 hd.2
    rw [hnone] at h1
    have hseq : set = List.range set.length := h1
    refine wpM_alloc (fun w' g1 g2 g3 g4 => ?_) (fun i w1 g2 g3 g4 => ?_)
    · simp only [wpM_pure]
      exact ⟨g2, g4, g3, Or.inl g1⟩
    dsimp only
    rw [wpM_bind, wpM_useK]
    refine ⟨?_, ?_⟩
    · intro x hx
      rw [g3]
      simp only [AnnObj.ids, List.cons_append, List.mem_cons, List.mem_append] at hx
      simp only [Multiset.mem_add, Multiset.mem_singleton]
      rcases hx with rfl | rfl | rfl | rfl | hx | hx
      · exact Or.inl rfl
      · exact Or.inr (Multiset.mem_of_le hown (by simp))
      · exact Or.inr (Multiset.mem_of_le hown (by simp))
      · exact Or.inr (Multiset.mem_of_le hown (by simp))
      · exact Or.inr (hcall.live x hx)
      · exact Or.inr (hcall.qlive x hx)
    · have := annLoop_spec (k := k) (nn := nn) (step := annDirectStep lib ds o.set k rs (FloatOps.mul radius radius)) hcall.holds oq (by rw [hcall.len]; exact hcall.room) (by rw [hcall.len]; exact hcall.oroom) hcall.notNull
        (annResult lib ds set k rs (FloatOps.mul radius radius)) (fun q hq l hl => annResult_length hA hc h3 h4 (hcall.range q hq) hcall.kpos hcall.kle rs radius hl)
        (fun q hq base nn' _ hroom => by rw [h2]; exact annDirectStep_spec hA hc h3 h4 hcall.kpos hcall.kle rs radius hseq (hcall.range q hq) base nn' hroom)
      rw [hcall.len] at this
      refine this.mono ?_
      rintro out ⟨k1, k2, k3⟩
      rw [wpM_bind]
      refine wpM_freeId w.live g3 fun w4 d1 d2 d3 => ?_
      cases rs with
      | true =>
        rw [if_pos rfl, wpM_pure]
        exact ⟨d1.trans g2, d3.trans g4, d2, k1, k2, k3⟩
      | false =>
        rw [if_neg (by simp)]
        have hall : ∀ (i x : Nat), Q[i]? = some x → ∃ l, (answered (Q.map fun q => (q, annResult lib ds set k false (FloatOps.mul radius radius) q)))[i]? = some (x, l) := by
          have hmem : ∀ q ∈ Q, ∃ l, annResult lib ds set k false (FloatOps.mul radius radius) q = some l := fun q hq => by
            obtain ⟨-, -, g, -⟩ := annResult_spec hA h3 h4 (hcall.range q hq) hcall.kpos hcall.kle false radius
            exact Option.ne_none_iff_exists'.1 (g.1 rfl)
          clear this k3 hcall
          induction Q with
          | nil => intro i x hx; cases hx
          | cons q Q ih =>
            obtain ⟨l, hl⟩ := hmem q List.mem_cons_self
            intro i x hx
            rw [List.map_cons, hl]
            cases i with
            | zero =>
              cases hx
              exact ⟨l, rfl⟩
            | succ i => exact ih (fun q hq => hmem q (List.mem_cons_of_mem _ hq)) i x hx
        obtain ⟨a1, a2, a3, a4, a5⟩ := carry_spec hcall.holds oq k2 (fun hn i x hx => by
          obtain ⟨l, hl⟩ := hall i x hx
          exact k3.queries hn i _ hl)
        have hcall' : NNCall ds.n set w4 (arrIds o.search) lenQ (carryQueries queries oq out.outQ) Q k false (carryOut oq out.outQ) out.nn := by
          refine ⟨a1, hcall.len, fun i hi => by rw [d2]; exact hcall.live i hi, fun i hi => by rw [d2]; exact hcall.qlive i (a2 ▸ hi), hcall.pos, hcall.range, hcall.kpos, hcall.kle, by rw [k1]; exact hcall.room, ?_, ?_⟩
          · rcases hcall.oroom with h | h
            · exact Or.inl (a4.2 h)
            · exact Or.inr (by rw [a3]; exact h)
          · intro hs
            refine (a5 hs).resolve_right (hcall.notNull ?_)
            cases oq with
            | same => rfl
            | null => cases hs
            | buf c => cases hs
        refine (annGeneralTidy_spec hA hc false radius ho' (by rw [d2]; exact hown) hcall').mono ?_
        rintro r w5 ⟨e1, e2, e3, e4⟩
        refine ⟨e1.trans (d1.trans g2), e2.trans (d3.trans g4), e3.trans d2, ?_⟩
        cases r with
        | none =>
          rcases e4 with e4 | e4
          · exact Or.inl fun hn => e4 fun t b => by rw [d1, g2]; exact hn t b
          · exact Or.inr e4
        | some out' => exact ⟨e4.1.trans k1, e4.2.1.trans a3, matches_carry e4.2.2⟩
  · rw [if_neg hd]
    exact annGeneralTidy_spec hA hc rs radius ho' hown hcall

end search

/-- The ANN wrapper without its leaks works as documented if the ANN library does. It may refuse more than `INT_MAX` points. -/
def annTidySpi_ok {lib : AnnLib F} {ds : DataSet F} {A : Criterion F} (hA : AnnOk lib ds A) (hc : ds.Complete) (direct : Bool) :
    SpiOk (annTidySpi direct lib (some ds)) ds.n A ds.dist (intMax < ds.n) where
  isNN := annIsNN ds.n
  nnInit := by
    intro len arr L w ha hlen _ hnd hr hl
    subst hlen
    refine (annInitTidy_spec hc w ha hnd hr hl).mono ?_
    rintro (_ | o) w' h
    · exact h
    · exact h
  nnSearch := by
    intro o set own ids lenQ queries Q k rs radius oq nn w ho hown hcall
    refine (annSearchTidy_spec hA hc direct rs radius ho hown hcall).mono ?_
    rintro (_ | out) w' ⟨h1, h2, h3, h4⟩
    · exact ⟨h1, h2, h3, h4⟩
    · refine ⟨h1, h2, h3, h4.1, fun _ => h4.2.1, _, ?_, ?_, h4.2.2⟩
      · rw [List.map_map]; exact List.map_id _
      · intro p hp
        obtain ⟨q, hq, rfl⟩ := List.mem_map.1 hp
        obtain ⟨-, g2, g3, -⟩ := annResult_spec hA ho.2.2.2.1 ho.2.2.2.2.1 (hcall.range q hq) hcall.kpos hcall.kle rs radius
        exact ⟨g2, g3⟩
  nnClose := by
    rintro o set own ids w L ⟨rfl, -⟩ hl
    show WpM (annClose o) w _
    unfold annClose
    rw [wpM_bind]
    refine wpM_freeId ({o.id} + ({o.points} + L)) (by rw [hl, add_assoc, add_assoc, add_comm ({o.tree} : Multiset Nat), add_comm ({o.tree} : Multiset Nat), add_assoc, add_assoc]) fun w1 h1 h2 h3 => ?_
    rw [wpM_bind]
    refine wpM_freeId ({o.id} + L) (by rw [h2, add_left_comm]) fun w2 g1 g2 g3 => ?_
    rw [wpM_bind]
    refine wpM_freeId L g2 fun w3 f1 f2 f3 => ?_
    rw [wpM_pure]
    exact ⟨f1.trans (g1.trans h1), f3.trans (g3.trans h3), f2, nofun⟩
  distRows := by
    intro lenQ queries Q lenC cols C out w hq hql hc' hcl hQ hC hpq hpc hl1 hl2 hlen
    subst hql hcl
    refine (distRows_spec ds hc out w hq hc' hQ hC hl1 hl2 hlen).mono ?_
    rintro _ w' ⟨h1, h2, h3, out', rfl, h4, h5, h6⟩
    exact ⟨h1, h2, h3, h4, h5⟩
  numPoints := rfl

end Scc
