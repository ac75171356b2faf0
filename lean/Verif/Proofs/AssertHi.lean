/-
Hierarchical clustering in a build with assertions: in a state that is reached, the functions with assertions do the same as those without.
-/
import Verif.Model.AssertHi
import Verif.Proofs.Assert
import Verif.Proofs.HiCall

namespace Scc

variable {F : Type} [FloatOps F]

/-! ### Edge lists -/

theorem nextMarkerDbg_eq {cfg : Cfg} {store : Buf Nat} {c : HiItem} {marks : Buf Nat} (h : 0 < c.size) : nextMarkerDbg cfg store c marks = nextMarker cfg store c marks := by
  unfold nextMarkerDbg
  rw [asrt_bind h]

theorem sortEdgesDbg_eq {hi : HiEnv F} {store : Buf Nat} {off center r : Nat} {X : List Nat} {dist : Nat → F} {dists : Buf F}
    {edges : Buf (Nat × F)} (hX : X.Nodup) (hsize : 4 ≤ X.length) (hc : center ∈ X) (hs : ∀ (i x : Nat), X[i]? = some x → store.get (off + i) = some x)
    (hdist : ∀ (i x : Nat), X[i]? = some x → dists.get (r * X.length + i) = some (dist x)) (hlen : X.length ≤ edges.len) :
    sortEdgesDbg hi store off X.length center dists r edges = sortEdges hi store off X.length center dists r edges := by
  unfold sortEdgesDbg sortEdges
  rw [asrt_bind hsize]
  have hL := filter_ne_length hX hc
  set L := X.filter fun x => decide (x ≠ center) with hLd
  refine obind_eq (Q := fun st => st.2 = X.length) rfl ?_ ?_
  · refine wp_forLt (fun i st => st.1.len = edges.len ∧ st.2 = 1 + ((X.take i).filter fun x => decide (x ≠ center)).length) (Nat.zero_le _) ⟨rfl, rfl⟩ ?_ ?_
    · rintro i ⟨e, w⟩ - hi' ⟨h1, h2⟩
      dsimp only at h1 h2 ⊢
      have hx := List.getElem?_eq_getElem hi'
      have htake : X.take (i + 1) = X.take i ++ [X[i]] := List.take_succ_eq_append_getElem hi'
      rw [wp_bind, wp_eq (hs i _ hx)]
      by_cases hxc : X[i] = center
      · rw [if_pos hxc, wp_pure]
        have : (X.take (i + 1)).filter (fun x => decide (x ≠ center)) = (X.take i).filter fun x => decide (x ≠ center) := by
          rw [htake, List.filter_append, List.filter_cons_of_neg (by simp [hxc])]; simp
        rw [this]
        exact ⟨h1, h2⟩
      · rw [if_neg hxc, wp_bind, wp_eq (hdist i _ hx), wp_bind, Buf.wp_set, wp_pure]
        have hfil : (X.take (i + 1)).filter (fun x => decide (x ≠ center)) = ((X.take i).filter fun x => decide (x ≠ center)) ++ [X[i]] := by
          rw [htake, List.filter_append, List.filter_cons_of_pos (by simpa using hxc)]; simp
        have hle : ((X.take (i + 1)).filter fun x => decide (x ≠ center)).length ≤ L.length := ((List.take_sublist (i + 1) X).filter _).length_le
        rw [hfil, List.length_append, List.length_singleton] at hle
        refine ⟨by omega, h1, ?_⟩
        dsimp only; rw [hfil, List.length_append, List.length_singleton, h2]; omega
    · rintro ⟨e, w⟩ ⟨-, h2⟩
      dsimp only at h2 ⊢
      rw [List.take_length, ← hLd] at h2
      omega
  · rintro ⟨e, w⟩ hw
    dsimp only at hw ⊢
    rw [asrt_bind hw]

theorem nextDistDbg_eq {edges : Buf (Nat × F)} {marks : Buf Nat} {marker prev fuel : Nat} {next : Buf (Option Nat)} :
    nextDistDbg edges marks marker prev fuel next = nextDist edges marks marker prev fuel next := by
  induction fuel generalizing next with
  | zero => rfl
  | succ fuel ih =>
    unfold nextDistDbg nextDist
    cases hg : next.get prev with
    | none => rfl
    | some p =>
      cases p with
      | none => rfl
      | some p =>
        rw [Option.bind_eq_bind, Option.bind_some, asrt_bind (p := (some p).isSome = true) rfl]
        simp only [Option.bind_eq_bind, Option.bind_some, ih]

theorem nextKnnDbg_eq {edges : Buf (Nat × F)} {marks : Buf Nat} {marker prev k : Nat} {next : Buf (Option Nat)} {out : Buf Nat} (hk : 0 < k) :
    nextKnnDbg edges marks marker prev k next out = nextKnn edges marks marker prev k next out := by
  unfold nextKnnDbg nextKnn
  simp only [nextDistDbg_eq]
  obtain ⟨k, rfl⟩ : ∃ j, k = j + 1 := ⟨k - 1, by omega⟩
  have hstart : ∀ f : Nat → Nat × Buf (Option Nat) × Buf Nat → Option (Nat × Buf (Option Nat) × Buf Nat), forLt 0 (k + 1) (prev, next, out) f = f 0 (prev, next, out) >>= fun s => forLt 1 (k + 1) s f := by
    intro f
    unfold forLt
    rw [show k + 1 - 0 = k + 1 from rfl, List.range'_succ, List.foldlM_cons]
    rfl
  cases hg : next.get prev with
  | none =>
    rw [hstart]
    cases hm : edges.len <;> simp [nextDist, hg]
  | some p =>
    cases p with
    | none =>
      rw [hstart]
      cases hm : edges.len <;> simp [nextDist, hg, asrt]
    | some p =>
      rw [get_bind rfl, asrt_bind (p := (some p).isSome = true) rfl, asrt_bind hk]

/-! ### Moving points -/

section
variable {store0 marks0 : Buf Nat} {off marker : Nat} {X : List Nat} {c1 c2 : Nat}

theorem PartsInv.unmarked {A B U : List Nat} {p : HiParts} (h : PartsInv store0 marks0 off marker X c1 c2 A B U p) {x : Nat} (hx : x ∈ U) : ∃ m, p.marks.get x = some m ∧ m ≠ marker := by
  obtain ⟨m, h1, h2⟩ := h.marked x (others_sub (h.sub hx))
  exact ⟨m, h1, h2.2 hx⟩

theorem moveTo1Dbg_eq {A B U : List Nat} {x : Nat} {p : HiParts} (h : PartsInv store0 marks0 off marker X c1 c2 A B U p) (hx : x ∈ U) : moveTo1Dbg marker x p = moveTo1 marker x p := by
  obtain ⟨m, h1, h2⟩ := h.unmarked hx
  unfold moveTo1Dbg
  rw [get_bind h1, asrt_bind h2, asrt_bind (by rw [h.item1])]

theorem moveTo2Dbg_eq {A B U : List Nat} {x : Nat} {p : HiParts} (h : PartsInv store0 marks0 off marker X c1 c2 A B U p) (hx : x ∈ U) : moveTo2Dbg marker x p = moveTo2 marker x p := by
  obtain ⟨m, h1, h2⟩ := h.unmarked hx
  unfold moveTo2Dbg
  rw [get_bind h1, asrt_bind h2, asrt_bind (by rw [h.item2])]

theorem moveArrTo1Dbg_eq {A B U V xs : List Nat} {ids : Buf Nat} {p : HiParts} (h : PartsInv store0 marks0 off marker X c1 c2 A B U p) (hX : X.Nodup) (hfit : off + X.length ≤ store0.len)
    (hids : ∀ (i x : Nat), xs[i]? = some x → ids.get i = some x) (hp : U.Perm (xs ++ V)) (hroom : A.length + B.length + xs.length + 2 ≤ X.length) (hpos : 0 < xs.length) :
    moveArrTo1Dbg marker xs.length ids p = moveArrTo1 marker xs.length ids p := by
  unfold moveArrTo1Dbg moveArrTo1
  rw [asrt_bind hpos, asrt_bind (by rw [h.item1])]
  refine forNe_eq (fun i p => PartsInv store0 marks0 off marker X c1 c2 (A ++ xs.take i) B (xs.drop i ++ V) p) (by simpa using h.congr hp) ?_
  intro i p _ hi h'
  have hx := hids i _ (List.getElem?_eq_getElem hi)
  obtain ⟨m, h1, h2⟩ := h'.unmarked (x := xs[i]) (List.mem_append_left _ (by rw [drop_eq_cons hi]; exact List.mem_cons_self))
  refine ⟨?_, ?_⟩
  · rw [get_bind hx, get_bind hx, get_bind h1, asrt_bind h2]
  · rw [wp_bind, wp_eq hx]
    have := moveTo1_spec (V := xs.drop (i + 1) ++ V) (x := xs[i]) h' hX hfit (by rw [drop_eq_cons hi]; exact List.Perm.refl _) (by simp; omega)
    rwa [List.append_assoc, ← List.take_succ_eq_append_getElem hi] at this

theorem moveArrTo2Dbg_eq {A B U V xs : List Nat} {ids : Buf Nat} {p : HiParts} (h : PartsInv store0 marks0 off marker X c1 c2 A B U p) (hX : X.Nodup) (hfit : off + X.length ≤ store0.len)
    (hids : ∀ (i x : Nat), xs[i]? = some x → ids.get i = some x) (hp : U.Perm (xs ++ V)) (hroom : A.length + B.length + xs.length + 2 ≤ X.length) (hpos : 0 < xs.length) :
    moveArrTo2Dbg marker xs.length ids p = moveArrTo2 marker xs.length ids p := by
  unfold moveArrTo2Dbg moveArrTo2
  rw [asrt_bind hpos, asrt_bind (by rw [h.item2])]
  refine forNe_eq (fun i p => PartsInv store0 marks0 off marker X c1 c2 A ((xs.take i).reverse ++ B) (xs.drop i ++ V) p) (by simpa using h.congr hp) ?_
  intro i p _ hi h'
  have hx := hids i _ (List.getElem?_eq_getElem hi)
  obtain ⟨m, h1, h2⟩ := h'.unmarked (x := xs[i]) (List.mem_append_left _ (by rw [drop_eq_cons hi]; exact List.mem_cons_self))
  refine ⟨?_, ?_⟩
  · rw [get_bind hx, get_bind hx, get_bind h1, asrt_bind h2]
  · rw [wp_bind, wp_eq hx]
    have := moveTo2_spec (V := xs.drop (i + 1) ++ V) (x := xs[i]) h' hX hfit (by rw [drop_eq_cons hi]; exact List.Perm.refl _) (by simp; omega)
    rwa [← List.cons_append, show xs[i] :: (xs.take i).reverse = (xs.take (i + 1)).reverse by rw [List.take_succ_eq_append_getElem hi, List.reverse_append]; rfl] at this

end

/-! ### Assigning points to the two clusters -/

section
variable {store0 marks0 : Buf Nat} {off marker : Nat} {X : List Nat} {c1 c2 : Nat} {e1 e2 : Buf (Nat × F)} {d1 d2 : Nat → F} {l1 l2 : Nat}

theorem knn1ofDbg_eq {s : HiSplit} {k : Nat} (hk : 0 < k) : s.knn1ofDbg e1 marker k = s.knn1of e1 marker k := by
  unfold HiSplit.knn1ofDbg HiSplit.knn1of
  rw [nextKnnDbg_eq hk]

theorem knn2ofDbg_eq {s : HiSplit} {k : Nat} (hk : 0 < k) : s.knn2ofDbg e2 marker k = s.knn2of e2 marker k := by
  unfold HiSplit.knn2ofDbg HiSplit.knn2of
  rw [nextKnnDbg_eq hk]

theorem accept1Dbg {A B U V xs : List Nat} {s : HiSplit} {k : Nat} (h : SplitInv store0 marks0 off marker X c1 c2 e1 e2 d1 d2 l1 l2 A B U s) (hX : X.Nodup) (hfit : off + X.length ≤ store0.len)
    (hk : xs.length = k) (hp : U.Perm (xs ++ V)) (hids : ∀ (i x : Nat), xs[i]? = some x → s.knn1.get i = some x) (hroom : A.length + B.length + k + 2 ≤ X.length) (hpos : 0 < k) :
    moveArrTo1Dbg marker k s.knn1 s.parts = moveArrTo1 marker k s.knn1 s.parts := by
  subst hk
  exact moveArrTo1Dbg_eq h.parts hX hfit hids hp hroom hpos

theorem accept2Dbg {A B U V xs : List Nat} {s : HiSplit} {k : Nat} (h : SplitInv store0 marks0 off marker X c1 c2 e1 e2 d1 d2 l1 l2 A B U s) (hX : X.Nodup) (hfit : off + X.length ≤ store0.len)
    (hk : xs.length = k) (hp : U.Perm (xs ++ V)) (hids : ∀ (i x : Nat), xs[i]? = some x → s.knn2.get i = some x) (hroom : A.length + B.length + k + 2 ≤ X.length) (hpos : 0 < k) :
    moveArrTo2Dbg marker k s.knn2 s.parts = moveArrTo2 marker k s.knn2 s.parts := by
  subst hk
  exact moveArrTo2Dbg_eq h.parts hX hfit hids hp hroom hpos

theorem splitFirstDbg_eq {U : List Nat} {s : HiSplit} {S : Nat} (h : SplitInv store0 marks0 off marker X c1 c2 e1 e2 d1 d2 l1 l2 [] [] U s) (hX : X.Nodup) (hfit : off + X.length ≤ store0.len)
    (hS : 2 ≤ S) (hXS : 2 * S ≤ X.length) (hU : X.length - 2 ≤ U.length) (hl1 : S ≤ l1) (hl2 : S ≤ l2) :
    splitFirstDbg e1 e2 S marker s = splitFirst e1 e2 S marker s := by
  unfold splitFirstDbg splitFirst
  simp only [knn1ofDbg_eq (show 0 < S - 1 by omega), knn2ofDbg_eq (show 0 < S - 1 by omega)]
  refine obind_eq rfl (knn1of_spec (k := S - 1) h hX (by omega) (by omega)) ?_
  rintro ⟨t1, s1⟩ ⟨g1, g2, g3, g4, g5, xs, V, g6, gT, g9, g10⟩
  dsimp only at g1 g2 g3 g4 g5 g6 g9 g10 ⊢
  have g7 := gT.count
  have g8 := gT.split
  refine obind_eq rfl (knn2of_spec (k := S - 1) g1 hX (by omega) (by omega)) ?_
  rintro ⟨t2, s2⟩ ⟨k1, k2, k3, k4, k5, ys, W, k6, kT, k9, k10⟩
  dsimp only at k1 k2 k3 k4 k5 k6 k9 k10 ⊢
  have k7 := kT.count
  have k8 := kT.split
  obtain ⟨a, ha, -, had, hal⟩ := g6 (by omega)
  obtain ⟨b, hb, -, hbd, hbl⟩ := k6 (by omega)
  rw [get_bind ha, get_bind ha, get_bind hb, get_bind hb]
  have lV : V.length = U.length - (S - 1) := by have := g8.length_eq; rw [List.length_append] at this; omega
  have lW : W.length = U.length - (S - 1) := by have := k8.length_eq; rw [List.length_append] at this; omega
  by_cases hle : FloatOps.le b.2 a.2 = true
  · rw [if_pos hle, if_pos hle]
    refine obind_eq (accept1Dbg k1 hX hfit g7 g8 (by rw [k5]; exact g9) (by simp; omega) (by omega))
      (accept1 (t := t1) k1 hX hfit g7 g8 (by rw [k5]; exact g9) (by rw [k3]; exact g10) (by simp; omega)) fun p hp => ?_
    refine obind_eq rfl (knn2of_spec (k := S - 1) hp hX (by omega) (by omega)) ?_
    rintro ⟨t, s3⟩ ⟨m1, -, -, -, -, zs, Z, -, mT, m9, m10⟩
    dsimp only at m1 m9 m10 ⊢
    rw [accept2Dbg m1 hX hfit mT.count mT.split m9 (by simp; omega) (by omega)]
  · rw [if_neg hle, if_neg hle]
    refine obind_eq (accept2Dbg k1 hX hfit k7 k8 k9 (by simp; omega) (by omega))
      (accept2 (t := t2) k1 hX hfit k7 k8 k9 k10 (by simp; omega)) fun p hp => ?_
    refine obind_eq rfl (knn1of_spec (k := S - 1) hp hX (by omega) (by omega)) ?_
    rintro ⟨t, s3⟩ ⟨m1, -, -, -, -, zs, Z, -, mT, m9, m10⟩
    dsimp only at m1 m9 m10 ⊢
    rw [accept1Dbg m1 hX hfit mT.count mT.split m9 (by simp; omega) (by omega)]

theorem splitBatchDbg_eq {A B U : List Nat} {s : HiSplit} {k : Nat} (h : SplitInv store0 marks0 off marker X c1 c2 e1 e2 d1 d2 l1 l2 A B U s) (hX : X.Nodup) (hfit : off + X.length ≤ store0.len)
    (hk : 0 < k) (hkU : k ≤ U.length) (hroom : A.length + B.length + k + 2 ≤ X.length) (hl1 : k ≤ l1) (hl2 : k ≤ l2) :
    splitBatchDbg e1 e2 marker k s = splitBatch e1 e2 marker k s := by
  unfold splitBatchDbg splitBatch
  simp only [knn1ofDbg_eq hk, knn2ofDbg_eq hk]
  refine obind_eq rfl (knn1of_spec h hX hkU hl1) ?_
  rintro ⟨t1, s1⟩ ⟨g1, g2, g3, g4, g5, xs, V, g6, gT, g9, g10⟩
  dsimp only at g1 g2 g3 g4 g5 g6 g9 g10 ⊢
  refine obind_eq rfl (knn2of_spec g1 hX hkU hl2) ?_
  rintro ⟨t2, s2⟩ ⟨k1, k2, k3, k4, k5, ys, W, k6, kT, k9, k10⟩
  dsimp only at k1 k2 k3 k4 k5 k6 k9 k10 ⊢
  rw [accept1Dbg k1 hX hfit gT.count gT.split (by rw [k5]; exact g9) hroom hk, accept2Dbg k1 hX hfit kT.count kT.split k9 hroom hk]

theorem splitBatchesDbg_eq (hX : X.Nodup) (hfit : off + X.length ≤ store0.len) (ho : X.length - 2 ≤ (others X c1 c2).length) (fuel : Nat) {A B U : List Nat} {s : HiSplit} {left k : Nat}
    (h : SplitInv store0 marks0 off marker X c1 c2 e1 e2 d1 d2 l1 l2 A B U s) (hk : 0 < k) (hroom : A.length + B.length + left + 2 = X.length) (hl1 : k ≤ l1) (hl2 : k ≤ l2) :
    splitBatchesDbg e1 e2 marker fuel left k s = splitBatches e1 e2 marker fuel left k s := by
  induction fuel generalizing A B U s left k with
  | zero => rfl
  | succ fuel ih =>
    unfold splitBatchesDbg splitBatches
    by_cases h0 : left = 0
    · rw [if_pos h0, if_pos h0]
    · rw [if_neg h0, if_neg h0]
      dsimp only
      have hk1 : (if left < k then left else k) ≤ left ∧ (if left < k then left else k) ≤ k ∧ 0 < (if left < k then left else k) := by split <;> omega
      revert hk1
      generalize (if left < k then left else k) = k'
      rintro ⟨q1, q2, q3⟩
      have hU := h.left
      refine obind_eq (splitBatchDbg_eq h hX hfit q3 (by omega) (by omega) (by omega) (by omega)) (splitBatch_spec h hX hfit q3 (by omega) (by omega) (by omega) (by omega)) ?_
      rintro s' ⟨A', B', V, g1, g2, -⟩
      have := g2.total
      exact ih (left := left - k') (k := k') g1 q3 (by omega) (by omega) (by omega)

/-- An edge that is found leads to a point that is not marked. -/
theorem nextDist_unmarked {edges : Buf (Nat × F)} {marks : Buf Nat} {prev fuel : Nat} {next next' : Buf (Option Nat)} {t : Nat} (h : nextDist edges marks marker prev fuel next = some (t, next')) :
    ∃ e m, edges.get t = some e ∧ marks.get e.1 = some m ∧ m ≠ marker := by
  induction fuel generalizing next with
  | zero => cases h
  | succ fuel ih =>
    unfold nextDist at h
    simp only [Option.bind_eq_bind, Option.bind_eq_some_iff] at h
    obtain ⟨p, -, q, -, e, he, m, hm, h⟩ := h
    by_cases hmm : m = marker
    · rw [if_pos hmm] at h
      simp only [Option.bind_eq_some_iff] at h
      obtain ⟨-, -, nx, -, h⟩ := h
      exact ih h
    · rw [if_neg hmm] at h
      cases h
      exact ⟨e, m, he, hm, hmm⟩

theorem splitSingleDbg_eq {A B U : List Nat} {s : HiSplit} (h : SplitInv store0 marks0 off marker X c1 c2 e1 e2 d1 d2 l1 l2 A B U s) :
    splitSingleDbg e1 e2 marker s = splitSingle e1 e2 marker s := by
  unfold splitSingleDbg splitSingle
  simp only [nextDistDbg_eq]
  refine bind_eq_some ?_
  rintro ⟨t1, n1⟩ h1
  refine bind_eq_some ?_
  rintro ⟨t2, n2⟩ h2
  obtain ⟨a, ma, ha, ha1, ha2⟩ := nextDist_unmarked h1
  obtain ⟨b, mb, hb, hb1, hb2⟩ := nextDist_unmarked h2
  dsimp only
  rw [get_bind ha, get_bind ha, get_bind hb, get_bind hb]
  unfold moveTo1Dbg moveTo2Dbg
  rw [get_bind ha1, get_bind hb1, asrt_bind ha2, asrt_bind hb2, asrt_bind (by rw [h.parts.item1]), asrt_bind (by rw [h.parts.item2])]

theorem splitRestDbg_eq (hX : X.Nodup) (hfit : off + X.length ≤ store0.len) (ho : X.length - 2 ≤ (others X c1 c2).length) {A B U : List Nat} {s : HiSplit} {left S : Nat} (batch : Bool)
    (h : SplitInv store0 marks0 off marker X c1 c2 e1 e2 d1 d2 l1 l2 A B U s) (hS : 0 < S) (hroom : A.length + B.length + left + 2 = X.length) (hl1 : S ≤ l1) (hl2 : S ≤ l2) :
    splitRestDbg e1 e2 S marker left batch s = splitRest e1 e2 S marker left batch s := by
  unfold splitRestDbg splitRest
  by_cases hb : batch = true
  · rw [if_pos hb, if_pos hb]
    exact splitBatchesDbg_eq hX hfit ho _ h hS hroom hl1 hl2
  · rw [if_neg hb, if_neg hb]
    refine forLt_eq (fun i s => ∃ A' B' V, SplitInv store0 marks0 off marker X c1 c2 e1 e2 d1 d2 l1 l2 A' B' V s ∧ A'.length + B'.length = A.length + B.length + i) ⟨A, B, U, h, rfl⟩ ?_
    rintro i s - hi ⟨A', B', V, g1, g2⟩
    refine ⟨splitSingleDbg_eq g1, ?_⟩
    have hV := g1.left
    refine (splitSingle_spec g1 hX hfit (by omega) (by omega)).mono ?_
    rintro s' ⟨A'', B'', V', k1, k2, -⟩
    have := k2.total
    exact ⟨A'', B'', V', k1, by omega⟩

end

/-! ### Breaking a cluster -/

/-- The two centers have been moved. -/
theorem centers_parts {store marks : Buf Nat} {off marker : Nat} {X : List Nat} {c1 c2 : Nat} (hX : X.Nodup) (hfit : off + X.length ≤ store.len) (hsize : 2 ≤ X.length) (hc1 : c1 ∈ X) (hc2 : c2 ∈ X)
    (m5 : ∀ x ∈ X, ∃ m, marks.get x = some m ∧ m < marker) : PartsInv store marks off marker X c1 c2 [] [] (others X c1 c2)
      ⟨(store.upd (off + 0) c1).upd (off + X.length - 1) c2, (marks.upd c1 marker).upd c2 marker, ⟨0 + 1, marker, some off⟩, ⟨0 + 1, marker, some (off + X.length - 1)⟩⟩ := by
  have hlt : ∀ x ∈ X, x < marks.len := fun x hx => by obtain ⟨m, hm, -⟩ := m5 x hx; exact Buf.lt_of_get hm
  refine ⟨rfl, rfl, ?_, ?_, rfl, ?_, rfl, ?_, ?_, by simp⟩
  · intro i y hy
    cases i with
    | zero =>
      simp at hy; subst hy
      dsimp only
      rw [Buf.get_upd_ne _ _ (by omega), Buf.get_upd_self _ _ (by omega)]
    | succ i => simp at hy
  · intro i y hy
    cases i with
    | zero =>
      simp at hy; subst hy
      dsimp only
      simp only [List.length_nil, Nat.sub_zero, Nat.add_zero]
      rw [Buf.get_upd_self _ _ (by simp; omega)]
    | succ i => simp at hy
  · intro i hi
    dsimp only
    rw [Buf.get_upd_ne _ _ (by omega), Buf.get_upd_ne _ _ (by omega)]
  · intro x hx
    dsimp only
    rw [Buf.get_upd_ne _ _ (by rintro rfl; exact hx hc2), Buf.get_upd_ne _ _ (by rintro rfl; exact hx hc1)]
  · intro x hx
    dsimp only
    by_cases h2 : x = c2
    · refine ⟨marker, by rw [h2, Buf.get_upd_self _ _ (by simpa using hlt _ hc2)], ?_⟩
      simp [others, h2]
    · rw [Buf.get_upd_ne _ _ h2]
      by_cases h1 : x = c1
      · refine ⟨marker, by rw [h1, Buf.get_upd_self _ _ (hlt _ hc1)], ?_⟩
        simp [others, h1]
      · rw [Buf.get_upd_ne _ _ h1]
        obtain ⟨m, hm, hm'⟩ := m5 x hx
        refine ⟨m, hm, ?_⟩
        simp only [others, List.mem_filter, decide_eq_true_eq]
        exact ⟨fun _ => ⟨hx, h1, h2⟩, fun _ => by omega⟩

theorem splitClusterDbg_eq {cfg : Cfg} (hcfg : 1 ≤ cfg.fast16Max) {n : Nat} {dist : Nat → Nat → F} (hd : DistLaws n dist) {hi : HiEnv F} (hhi : hi.Ok) {S : Nat} (hS : 2 ≤ S) (hS32 : 2 * S < 2 ^ 32)
    (batch : Bool) {X : List Nat} {off mk c1 c2 : Nat} {b : HiBufs F} (h : BreakPre cfg n S X off mk b) (hc1 : c1 ∈ X) (hc2 : c2 ∈ X) (hne : c1 ≠ c2)
    (hrow1 : ∀ (i x : Nat), X[i]? = some x → b.dists.get i = some (dist c1 x)) (hrow2 : ∀ (i x : Nat), X[i]? = some x → b.dists.get (X.length + i) = some (dist c2 x)) :
    splitClusterDbg cfg hi S batch ⟨X.length, mk, some off⟩ c1 c2 b = splitCluster cfg hi S batch ⟨X.length, mk, some off⟩ c1 c2 b := by
  have hX := h.nodup
  have hsize := h.size
  have hfit := h.fit
  have ho := others_length hX hc1 hc2
  unfold splitClusterDbg splitCluster
  dsimp only
  rw [get_bind rfl, get_bind rfl]
  refine obind_eq (sortEdgesDbg_eq (dist := dist c1) hX (by omega) hc1 h.seg (by simpa using hrow1) h.edges1) (sortEdges_spec hd hhi hX h.range hc1 h.seg (by simpa using hrow1) h.edges1) ?_
  rintro ⟨e1, next1⟩ ⟨g1, g2⟩
  refine obind_eq (sortEdgesDbg_eq (dist := dist c2) hX (by omega) hc2 h.seg (by simpa using hrow2) h.edges2) (sortEdges_spec hd hhi hX h.range hc2 h.seg (r := 1) (by simpa using hrow2) h.edges2) ?_
  rintro ⟨e2, next2⟩ ⟨k1, k2⟩
  dsimp only at g1 g2 k1 k2 ⊢
  refine obind_eq (nextMarkerDbg_eq (by dsimp only; omega)) (nextMarker_spec hcfg h.seg h.marks h.marker) ?_
  rintro ⟨c, marks⟩ ⟨marker, rfl, m2, m3, m4, m5⟩
  dsimp only at m3 m4 m5 ⊢
  have hlt : ∀ x ∈ X, x < marks.len := fun x hx => by obtain ⟨m, hm, -⟩ := m5 x hx; exact Buf.lt_of_get hm
  -- the centers
  obtain ⟨a, ha, ha'⟩ := m5 c1 hc1
  obtain ⟨a2, ha2, ha2'⟩ := m5 c2 hc2
  refine obind_eq (Q := fun p => p = ⟨b.store.upd (off + 0) c1, marks.upd c1 marker, ⟨0 + 1, marker, some off⟩, ⟨0, marker, some (off + X.length)⟩⟩) ?_ ?_ ?_
  · unfold moveTo1Dbg
    rw [get_bind ha, asrt_bind (by omega), asrt_bind rfl]
  · rw [moveTo1, wp_bind, Buf.wp_set]
    refine ⟨hlt _ hc1, ?_⟩
    dsimp only
    rw [wp_bind, wp_eq rfl, wp_bind, Buf.wp_set]
    exact ⟨by omega, by rw [wp_pure]⟩
  rintro p rfl
  refine obind_eq (Q := fun p => p = ⟨(b.store.upd (off + 0) c1).upd (off + X.length - 1) c2, (marks.upd c1 marker).upd c2 marker, ⟨0 + 1, marker, some off⟩, ⟨0 + 1, marker, some (off + X.length - 1)⟩⟩) ?_ ?_ ?_
  · unfold moveTo2Dbg
    dsimp only
    rw [get_bind (show (marks.upd c1 marker).get c2 = some a2 by rw [Buf.get_upd_ne _ _ hne.symm]; exact ha2), asrt_bind (by omega), asrt_bind rfl]
  · rw [moveTo2, wp_bind]
    dsimp only
    rw [wp_eq rfl, if_neg (by omega), wp_bind, Buf.wp_set]
    refine ⟨by simpa using hlt _ hc2, ?_⟩
    rw [wp_bind, Buf.wp_set]
    exact ⟨by simp; omega, by rw [wp_pure]⟩
  rintro p rfl
  have hparts : PartsInv b.store marks off marker X c1 c2 [] [] (others X c1 c2)
      ⟨(b.store.upd (off + 0) c1).upd (off + X.length - 1) c2, (marks.upd c1 marker).upd c2 marker, ⟨0 + 1, marker, some off⟩, ⟨0 + 1, marker, some (off + X.length - 1)⟩⟩ :=
    centers_parts hX hfit (by omega) hc1 hc2 m5
  have hon : (others X c1 c2).Nodup := hX.filter _
  have hsplit : SplitInv b.store marks off marker X c1 c2 e1 e2 (dist c1) (dist c2) b.idx1.len b.idx2.len [] [] (others X c1 c2)
      ⟨⟨(b.store.upd (off + 0) c1).upd (off + X.length - 1) c2, (marks.upd c1 marker).upd c2 marker, ⟨0 + 1, marker, some off⟩, ⟨0 + 1, marker, some (off + X.length - 1)⟩⟩, 0, 0, next1, next2, b.idx1, b.idx2⟩ := by
    refine ⟨hparts, g2.mono (hX.filter _) hon ?_, k2.mono (hX.filter _) hon ?_, rfl, rfl⟩
    · intro x hx
      simp only [others, List.mem_filter, decide_eq_true_eq] at hx ⊢
      exact ⟨hx.1, hx.2.1⟩
    · intro x hx
      simp only [others, List.mem_filter, decide_eq_true_eq] at hx ⊢
      exact ⟨hx.1, hx.2.2⟩
  refine obind_eq (splitFirstDbg_eq hsplit hX hfit hS hsize ho h.idx1.1 h.idx2.1) (splitFirst_spec hsplit hX hfit hS hsize ho h.idx1.1 h.idx2.1) ?_
  rintro s ⟨A, B, U, q1, q2, q3, -⟩
  have hu : u32 (2 * S) = 2 * S := Nat.mod_eq_of_lt hS32
  rw [asrt_bind (by rw [q1.parts.item1, q1.parts.item2]; dsimp only; omega), hu]
  refine obind_eq (splitRestDbg_eq hX hfit ho batch q1 (by omega) (by omega) h.idx1.1 h.idx2.1) (splitRest_spec hX hfit ho batch q1 (by omega) (by omega) h.idx1.1 h.idx2.1) ?_
  rintro s' ⟨A', B', V, r1, r2, -⟩
  have htot := r2.total
  have hfst := r2.first
  have hsnd := r2.second
  have i1 := r1.parts.item1
  have i2 := r1.parts.item2
  rw [asrt_bind (by rw [i1]; dsimp only; omega), asrt_bind (by rw [i2]; dsimp only; omega), get_bind (show s'.parts.c1.members = some off by rw [i1]),
    get_bind (show s'.parts.c2.members = some (off + X.length - 1 - B'.length) by rw [i2]), asrt_bind (by rw [i1]; dsimp only; omega)]

theorem findCentersDbg_eq {cfg : Cfg} (hcfg : 65535 ≤ cfg.fast16Max) {n : Nat} {spi : Spi F} (hvalid : spi.valid = true) {ids : HiIds}
    {S : Nat} (hS : 2 ≤ S) {X : List Nat} {off mk : Nat} {b : HiBufs F} (h : BreakPre cfg n S X off mk b) {w : World} :
    findCentersDbg cfg spi ids ⟨X.length, mk, some off⟩ b w = findCenters cfg spi ids ⟨X.length, mk, some off⟩ b w := by
  have hsize := h.size
  unfold findCentersDbg findCenters
  rw [asrtM_bind (by dsimp only; omega), asrtM_bind hvalid]
  refine mbind_same (useK_eq ?_)
  refine obind_eq (nextMarkerDbg_eq (by dsimp only; omega)) (nextMarker_spec (by omega) h.seg h.marks h.marker) ?_
  rintro ⟨c, marks⟩ ⟨marker, rfl, -⟩
  dsimp only
  rw [get_bind rfl, get_bind rfl, asrt_bind (p := checkCount cfg X.length ≤ hiNumToCheck) (checkCount_le cfg X.length)]

theorem breakClusterDbg_eq {cfg : Cfg} (hcfg : 65535 ≤ cfg.fast16Max) {n : Nat} {dist : Nat → Nat → F} (hd : DistLaws n dist) {hi : HiEnv F} (hhi : hi.Ok) {spi : Spi F} {mayRefuse : Prop}
    (ok : MetricOk spi n dist mayRefuse) (hvalid : spi.valid = true) {ids : HiIds} {S : Nat} (hS : 2 ≤ S) (hS32 : 2 * S < 2 ^ 32) (batch : Bool) {O X : List Nat} {off mk : Nat} {b : HiBufs F}
    (h : BreakPre cfg n S X off mk b) (hsp : Spread S dist O) (hsub : X ⊆ O) {w : World} (hids : ∀ i ∈ ids.all, i ∈ w.live) :
    breakClusterDbg cfg hi spi ids S batch ⟨X.length, mk, some off⟩ b w = breakCluster cfg hi spi ids S batch ⟨X.length, mk, some off⟩ b w := by
  have hsize := h.size
  have hu : u32 (2 * S) = 2 * S := Nat.mod_eq_of_lt hS32
  unfold breakClusterDbg breakCluster
  rw [asrtM_bind (by rw [hu]; exact hsize), asrtM_bind hvalid, asrtM_bind hS]
  refine mbind_eq (findCentersDbg_eq hcfg hvalid hS h) (findCenters_spec hcfg hd ok hS h hids) ?_
  rintro (e | ⟨c, b', c1, c2⟩) w1 ⟨f1, l1, h1⟩
  · rfl
  dsimp only at h1 ⊢
  obtain ⟨e1, mk', rfl, hb', hsame, hstore, hmout, hgood⟩ := h1
  have hne := good_ne hsp h.nodup hsub hsize hgood
  have hids1 : ∀ i ∈ ids.all, i ∈ w1.live := fun i hi => by rw [l1]; exact hids i hi
  rw [asrtM_bind (by dsimp only; omega), asrtM_bind hne, asrtM_bind hvalid]
  dsimp only
  refine mbind_eq (Q := fun o w' => o = off ∧ w' = w1) rfl (wpM_useK.2 ⟨by simp, by rw [wp_eq rfl]; exact ⟨rfl, rfl⟩⟩) ?_
  rintro o w' ⟨rfl, rfl⟩
  refine mbind_eq (Q := fun _ w'' => w'' = w') rfl (by unfold touch; rw [wpM_useK, wp_some]; exact ⟨fun i hi => hids1 i (by simp [HiIds.all] at hi ⊢; tauto), rfl⟩) ?_
  rintro - w'' rfl
  refine mbind_eq rfl (ok.distRows 2 (some ⟨[], Buf.ofList [c1, c2]⟩) [c1, c2] X.length (some ⟨[ids.store], b'.store.drop o⟩) X b'.dists w'' ?_ rfl (arrHolds_drop hb'.seg) rfl ?_ h.range (by omega)
      (by have := h.size; omega) (by simp [arrIds]) (fun i hi => hids1 i (by simp [HiIds.all, arrIds] at hi ⊢; tauto)) hb'.dists.1) ?_
  · intro i x hx
    exact (Buf.get_ofList _ _).trans hx
  · intro q hq
    simp only [List.mem_cons, List.not_mem_nil, or_false] at hq
    rcases hq with rfl | rfl
    · exact h.range _ hgood.mem1
    · exact h.range _ hgood.mem2
  rintro (_ | dists) w2 ⟨f2, e2, l2, h2⟩
  · rfl
  dsimp only at h2 ⊢
  obtain ⟨d1, d2⟩ := h2
  have hpre : BreakPre cfg n S X o mk' { b' with dists := dists } :=
    ⟨hb'.nodup, hb'.range, hb'.seg, hb'.fit, hb'.marks, hb'.marker, hb'.size, hb'.idx1, hb'.idx2, by dsimp only; rw [d1]; exact hb'.dists, hb'.edges1, hb'.edges2⟩
  rw [splitClusterDbg_eq (by omega) hd hhi hS hS32 batch hpre hgood.mem1 hgood.mem2 hne (fun i x hx => ?_) (fun i x hx => ?_)]
  · have := d2 0 i c1 x rfl hx
    simpa using this
  · have := d2 1 i c2 x rfl hx
    simpa using this

/-! ### The main loop -/

theorem hiStepDbg_eq {cfg : Cfg} (hcfg : cfg.Valid) {n : Nat} {dist : Nat → Nat → F} (hd : DistLaws n dist) {hi : HiEnv F} (hhi : hi.Ok) {spi : Spi F} {mayRefuse : Prop} (ok : MetricOk spi n dist mayRefuse)
    (hvalid : spi.valid = true) {ids : HiIds} {lids : List Nat} {S : Nat} (hS : 2 ≤ S) (hS32 : 2 * S < 2 ^ 32) (batch : Bool) {largest K T : Nat}
    {orgs : List (List Nat)} (hsp : ∀ O ∈ orgs, Spread S dist O) {labels0 : Buf Int} {r : HiRun F} {e : HiEntry} {st done : List HiEntry} (h : HiInv cfg n S batch dist largest K T orgs labels0 r (e :: st) done)
    {w : World} {L : Multiset Nat} (hl : w.live = {r.stack.clusters.id} + L) (hids : ∀ i ∈ ids.all, i ∈ L) :
    hiStepDbg cfg hi spi ids lids S batch r w = hiStep cfg hi spi ids lids S batch r w := by
  unfold hiStepDbg hiStep
  have hcap : r.stack.items ≤ r.stack.capacity := by rw [h.items]; exact h.cap.1
  refine mbind_eq (by unfold checkCapacityDbg; rw [asrtM_bind hcap]) (checkCapacity_spec hcfg.size hl hcap h.cap.2.1 h.cap.2.2 (big := True) (fun _ => trivial)) ?_
  rintro (ec | stack) w1 ⟨f1, h1⟩
  · rfl
  dsimp only at h1 ⊢
  obtain ⟨l1, e1, i1, c1, c2, c3, hcells⟩ := h1
  have hit : stack.items = st.length + 1 := by rw [i1, h.items]; rfl
  obtain ⟨off, s1, s2, s3, s4, s5⟩ := h.stk
  have hcell := h.cells st.length e (by rw [List.reverse_cons, List.getElem?_append_right (by simp)]; simp)
  have hmem1 : stack.clusters.id ∈ w1.live := by rw [l1]; simp
  have hmemL : ∀ i ∈ L, i ∈ w1.live := fun i hi => by rw [l1]; exact Multiset.mem_add.2 (Or.inr hi)
  refine mbind_eq (Q := fun c w' => c = e.item ∧ w' = w1) rfl (wpM_useK.2 ⟨by simpa using hmem1, by rw [hit, Nat.add_sub_cancel, wp_eq (hcells _ _ hcell)]; exact ⟨rfl, rfl⟩⟩) ?_
  rintro c w' ⟨rfl, rfl⟩
  have hu : u32 (2 * S) = 2 * S := Nat.mod_eq_of_lt hS32
  rw [hu]
  have hitem : e.item = ⟨e.pts.length, e.item.marker, some off⟩ := by rw [← s1, ← s2]
  obtain ⟨pn, pr, po, pp⟩ := h.pieces e (by simp)
  by_cases hsmall : e.item.size < 2 * S
  · rw [if_pos hsmall, if_pos hsmall]
  rw [if_neg hsmall, if_neg hsmall, asrtM_bind (by omega)]
  obtain ⟨b1, b2, b3⟩ := h.big e (by simp) (by omega)
  have hL := h.lens
  have hpre : BreakPre cfg n S e.pts off e.item.marker r.bufs :=
    ⟨pn, pr, s3, by rw [hL.store]; exact s4, b1, b2, by omega, hL.idx1, hL.idx2, ⟨by have := hL.dists; omega, hL.dists.2⟩, by have := hL.edges1; omega, by have := hL.edges2; omega⟩
  rw [hitem]
  exact mbind_same (breakClusterDbg_eq hcfg.fast16 hd hhi ok hvalid hS hS32 batch hpre (hsp _ po) pp.1 (fun i hi => hmemL i (hids i hi)))

theorem hiLoopDbg_eq {cfg : Cfg} (hcfg : cfg.Valid) {n : Nat} {dist : Nat → Nat → F} (hd : DistLaws n dist) {hi : HiEnv F} (hhi : hi.Ok) {spi : Spi F} {mayRefuse : Prop} (ok : MetricOk spi n dist mayRefuse)
    (hvalid : spi.valid = true) {ids : HiIds} {lids : List Nat} {S : Nat} (hS : 2 ≤ S) (hS32 : 2 * S < 2 ^ 32) (batch : Bool) {largest K T : Nat}
    {orgs : List (List Nat)} (hsp : ∀ O ∈ orgs, Spread S dist O) {labels0 : Buf Int} (hroom : n ≤ labels0.len) (fuel : Nat) {r : HiRun F} {st done : List HiEntry}
    (h : HiInv cfg n S batch dist largest K T orgs labels0 r st done) {w : World} {L : Multiset Nat} (hl : w.live = {r.stack.clusters.id} + L) (hids : ∀ i ∈ ids.all, i ∈ L) (hlids : ∀ i ∈ lids, i ∈ L) :
    hiLoopDbg cfg hi spi ids lids S batch fuel r w = hiLoop cfg hi spi ids lids S batch fuel r w := by
  induction fuel generalizing r st done w with
  | zero => rfl
  | succ fuel ih =>
    unfold hiLoopDbg hiLoop
    cases st with
    | nil => rw [if_pos (show r.stack.items = 0 from h.items), if_pos (show r.stack.items = 0 from h.items)]
    | cons e st =>
      rw [if_neg (by rw [h.items]; simp), if_neg (by rw [h.items]; simp)]
      refine mbind_eq (hiStepDbg_eq hcfg hd hhi ok hvalid hS hS32 batch hsp h hl hids) (hiStep_spec hcfg hd hhi ok hS hS32 batch (big := True) (fun _ => trivial) (fun _ => trivial) hroom h hl hids hlids) ?_
      rintro ⟨_ | ec, r'⟩ w1 ⟨f1, l1, len1, h1⟩
      · dsimp only at l1 len1 h1 ⊢
        obtain ⟨e1, st', done', h', hlt⟩ := h1
        exact ih h' l1
      · rfl

/-! ### The call -/

theorem emptyStackDbg_eq {cfg : Cfg} {hi : HiEnv F} {n : Nat} (hn : 2 ≤ n) (hp : n ≤ cfg.pointMax) : emptyStackDbg cfg hi n = emptyStack hi n := by
  unfold emptyStackDbg emptyStack
  rw [asrtM_bind hn]
  dsimp only
  congr 1
  funext cb
  congr 1
  funext sb
  cases cb with
  | none => rfl
  | some cb =>
    cases sb with
    | none => rfl
    | some sb =>
      dsimp only
      rw [asrtM_bind hp]

theorem initStackDbg_eq {cfg : Cfg} {hi : HiEnv F} {cl : Clustering} (hin : cl.isInitialized cfg = true) (hn : 2 ≤ cl.n) :
    initStackDbg cfg hi cl = initStack cfg hi cl.n cl.numClusters (ptrIds cl.label) (ptrBuf cl.label) := by
  have hp : cl.n ≤ cfg.pointMax := (isInitialized_iff.1 hin).2.2.1
  unfold initStackDbg initStack
  rw [asrtM_bind hin, asrtM_bind hn]
  simp only [asrt_bind hp]
  rfl

theorem makeStackDbg_eq {cfg : Cfg} {hi : HiEnv F} {cl : Clustering} (hin : cl.isInitialized cfg = true) (hn : 2 ≤ cl.n) : makeStackDbg cfg hi cl = makeStack cfg hi cl := by
  unfold makeStackDbg makeStack
  rw [emptyStackDbg_eq hn (isInitialized_iff.1 hin).2.2.1, initStackDbg_eq hin hn]

theorem hiMainDbg_eq {cfg : Cfg} (hcfg : cfg.Valid) {n : Nat} {dist : Nat → Nat → F} (hd : DistLaws n dist) {hi : HiEnv F} (hhi : hi.Ok) {spi : Spi F} {mayRefuse : Prop} (ok : MetricOk spi n dist mayRefuse)
    {S : Nat} (hS : 2 ≤ S) (hS32 : 2 * S < 2 ^ 32) (batch : Bool) {cl : Clustering} (hcl : cl.n = n) (hin : cl.isInitialized cfg = true) (hvalid : spi.valid = true) (hnum : spi.numPoints = cl.n)
    {lb : Blk Int} (hlb : cl.label = some lb) (hroom : n ≤ lb.buf.len) (hn : 2 * n ≤ cfg.sizeMax)
    {stack : HiStack} {store : Blk Nat} {largest T : Nat} {st : List HiEntry} (h : HiStart cfg n S largest (2 * n + stack.items) T stack store.buf st) (hpos : 0 < stack.items)
    (hsp : ∀ O ∈ st.map HiEntry.pts, Spread S dist O) {w : World} {M : Multiset Nat} (hl : w.live = {stack.clusters.id} + ({store.id} + ({lb.id} + M))) :
    hiMainDbg cfg hi spi S batch cl stack store largest w = hiMain cfg hi spi S batch cl stack store largest w := by
  subst hcl
  unfold hiMainDbg hiMain
  rw [asrtM_bind hpos]
  refine mbind_eq rfl (wpM_allocP fun i1 w1 a1 f1 l1 e1 => (⟨a1, l1⟩ : _ ∧ _)) ?_
  rintro i1 w1 ⟨a1, l1⟩
  refine mbind_eq rfl (wpM_allocP fun i2 w2 a2 f2 l2 e2 => (⟨a2, l2⟩ : _ ∧ _)) ?_
  rintro i2 w2 ⟨a2, l2⟩
  refine mbind_eq rfl (wpM_allocP fun d w3 a3 f3 l3 e3 => (⟨a3, l3⟩ : _ ∧ _)) ?_
  rintro d w3 ⟨a3, l3⟩
  refine mbind_eq rfl (wpM_allocP fun m w4 a4 f4 l4 e4 => (⟨a4, l4⟩ : _ ∧ _)) ?_
  rintro m w4 ⟨a4, l4⟩
  refine mbind_eq rfl (wpM_allocP fun g1 w5 a5 f5 l5 e5 => (⟨a5, l5⟩ : _ ∧ _)) ?_
  rintro g1 w5 ⟨a5, l5⟩
  refine mbind_eq rfl (wpM_allocP fun g2 w6 a6 f6 l6 e6 => (⟨a6, l6⟩ : _ ∧ _)) ?_
  rintro g2 w6 ⟨a6, l6⟩
  have hlive : w6.live = {stack.clusters.id} + (ptrOwn i1 + (ptrOwn i2 + (ptrOwn d + (ptrOwn m + (ptrOwn g1 + (ptrOwn g2 + ({store.id} + ({lb.id} + M)))))))) := by
    rw [l6, l5, l4, l3, l2, l1, hl]; abel
  refine mbind_same ?_
  unfold hiWorkDbg hiWork
  rcases a1 with ⟨rfl, -⟩ | ⟨j1, rfl⟩
  · rfl
  rcases a2 with ⟨rfl, -⟩ | ⟨j2, rfl⟩
  · rfl
  rcases a3 with ⟨rfl, -⟩ | ⟨j3, rfl⟩
  · rfl
  rcases a4 with ⟨rfl, -⟩ | ⟨j4, rfl⟩
  · rfl
  rcases a5 with ⟨rfl, -⟩ | ⟨j5, rfl⟩
  · rfl
  rcases a6 with ⟨rfl, -⟩ | ⟨j6, rfl⟩
  · rfl
  dsimp only
  rw [asrtM_bind hpos, asrtM_bind (by rw [h.items]; exact h.cap.1), asrtM_bind hin, asrtM_bind hvalid, asrtM_bind hnum, asrtM_bind hS, hlb]
  have hinv : HiInv cfg cl.n S batch dist largest (2 * cl.n + stack.items) T (st.map HiEntry.pts) lb.buf
      ⟨stack, ⟨store.buf, Buf.raw (hiIdxLen S), Buf.raw (hiIdxLen S), Buf.raw (hiDistLen cfg largest), Buf.fill cl.n 0, Buf.raw largest, Buf.raw largest⟩, lb.buf, 0⟩ st [] :=
    HiStart.inv (b := ⟨store.buf, Buf.raw (hiIdxLen S), Buf.raw (hiIdxLen S), Buf.raw (hiDistLen cfg largest), Buf.fill cl.n 0, Buf.raw largest, Buf.raw largest⟩) h
      ⟨h.storeLen, hiIdxLen_ge S, hiIdxLen_ge S, hiDistLen_ge hn h.largest, le_rfl, le_rfl⟩ rfl
  refine mbind_same (hiLoopDbg_eq hcfg hd hhi ok hvalid hS hS32 batch hsp hroom _ hinv hlive ?_ ?_)
  · intro x hx
    simp only [HiIds.all, List.mem_cons, List.not_mem_nil, or_false] at hx
    simp only [ptrOwn, Multiset.mem_add, Multiset.mem_singleton]
    rcases hx with hx | hx | hx | hx | hx | hx | hx <;> simp only [hx, true_or, or_true]
  · intro x hx
    simp only [ptrIds, List.mem_cons, List.not_mem_nil, or_false] at hx
    simp only [ptrOwn, Multiset.mem_add, Multiset.mem_singleton, hx, true_or, or_true]

theorem hiClusterDbg_eq {cfg : Cfg} {dist : Nat → Nat → F} {hi : HiEnv F} (hhi : hi.Ok) {spi : Spi F} {mayRefuse : Prop} {S : Nat} {ob : ClObj} (hd : DistLaws ob.cl.n dist) (ok : MetricOk spi ob.cl.n dist mayRefuse) (batch : Bool)
    {w : World} (hc : HiCallOk cfg S ob w) (hacc : HiAccepts cfg spi.valid spi.numPoints S ob.cl) (hsp : ∀ O ∈ startClusters ob.cl, Spread S dist O) {M : Multiset Nat} (hl : w.live = ptrOwn ob.cl.label + M) :
    hiClusterDbg cfg hi spi S batch ob.cl w = hiCluster cfg hi spi S batch ob.cl w := by
  obtain ⟨id, cl⟩ := ob
  dsimp only at *
  have hcfg := hc.config
  have hin := hacc.initialized
  have hinit := isInitialized_iff.1 hin
  have hS := hacc.size_two
  have hSn := hacc.size_le
  unfold hiClusterDbg hiCluster
  by_cases hk : cl.numClusters = 0
  · unfold hiLabels
    rw [if_pos hk]
    refine mbind_eq rfl (ensureLabels_spec hl) ?_
    rintro ⟨okb, cl1⟩ w1 ⟨f1, h1⟩
    dsimp only at h1 ⊢
    rcases h1 with ⟨rfl, hnf, hunt, l1⟩ | ⟨rfl, lb, rfl, l1, hold, hnew⟩
    · rfl
    · rw [if_neg (by simp), if_neg (by simp)]
      have hroom : cl.n ≤ lb.buf.len := by
        cases hlab : cl.label with
        | none => rw [hnew hlab]
        | some lb' => rw [← hold lb' hlab]; exact hc.room lb' hlab
      have hin1 : ({ cl with label := some lb, external := cl.external && cl.label.isSome } : Clustering).isInitialized cfg = true :=
        isInitialized_iff.2 ⟨hinit.1, hinit.2.1, hinit.2.2.1, hinit.2.2.2.1, by simp⟩
      rw [makeStackDbg_eq hin1 (by dsimp only; omega)]
      unfold makeStack
      dsimp only
      rw [if_pos hk]
      refine mbind_eq rfl (emptyStack_spec (S := S) (big := True) hcfg hhi (by omega)) ?_
      rintro (e | ⟨stack, store, largest⟩) w2 ⟨f2, h2⟩
      · rfl
      · dsimp only at h2 ⊢
        obtain ⟨l2, e2, st, hst, horgs⟩ := h2
        have hitems : stack.items = 1 := by
          rw [hst.items, ← List.length_map (f := HiEntry.pts), horgs]; rfl
        have hst' : HiStart cfg cl.n S largest (2 * cl.n + stack.items) cl.n stack store.buf st :=
          ⟨hst.items, hst.cap, hst.cells, hst.storeLen, hst.stk, by have := hst.rounds; omega, hst.pieces, hst.big, hst.disj, hst.total, hst.largest⟩
        refine hiMainDbg_eq hcfg hd hhi ok hS hc.twice batch (cl := { cl with label := some lb, external := cl.external && cl.label.isSome }) (n := cl.n) rfl hin1 hacc.valid hacc.points rfl hroom hc.points hst'
          (by omega) ?_ (by rw [l2, l1])
        rw [horgs]
        unfold startClusters at hsp
        rwa [if_pos hk] at hsp
  · unfold hiLabels
    rw [if_neg hk]
    refine mbind_eq (Q := fun r w' => r = (true, cl) ∧ w' = w) rfl (by rw [wpM_pure]; exact ⟨rfl, rfl⟩) ?_
    rintro r w' ⟨rfl, rfl⟩
    dsimp only
    rw [if_neg (by simp), if_neg (by simp)]
    obtain ⟨lb, hlb⟩ := Option.ne_none_iff_exists'.1 (hinit.2.2.2.2 (by omega))
    obtain ⟨hv, hff⟩ := hc.labels hk lb hlb
    have hroom := hc.room lb hlb
    rw [makeStackDbg_eq hin (by omega)]
    unfold makeStack
    rw [if_neg hk, hlb]
    have hl' : w'.live = {lb.id} + M := by rw [hl, hlb]; rfl
    refine mbind_eq rfl (initStack_spec hcfg hhi (S := S) (labels := lb.buf) (lids := ptrIds (some lb)) (by omega) hinit.2.2.2.1 hc.clusters hv hff (big := True) (fun _ => trivial) (by rw [hl']; simp [ptrIds])) ?_
    rintro (e | ⟨stack, store, largest⟩) w2 ⟨f2, h2⟩
    · rfl
    · dsimp only at h2 ⊢
      obtain ⟨l2, e2, st, hst, horgs⟩ := h2
      have hitems : stack.items = cl.numClusters := by
        rw [hst.items, ← List.length_map (f := HiEntry.pts), horgs]; simp [oldStack]
      rw [← hitems] at hst
      refine hiMainDbg_eq hcfg hd hhi ok hS hc.twice batch (cl := cl) rfl hin hacc.valid hacc.points hlb hroom hc.points hst (by omega) ?_ (by rw [l2, hl'])
      rw [horgs]
      unfold startClusters at hsp
      rwa [if_neg hk, hlb] at hsp

theorem hierarchicalDbg_eq {cfg : Cfg} {dist : Nat → Nat → F} {hi : HiEnv F} (hhi : hi.Ok) {spi : Spi F} {mayRefuse : Prop} {S : Nat} {ob : ClObj} (hd : DistLaws ob.cl.n dist) (ok : MetricOk spi ob.cl.n dist mayRefuse) (batch : Bool)
    {w : World} (hc : HiCallOk cfg S ob w) (hsp : ∀ O ∈ startClusters ob.cl, Spread S dist O) :
    hierarchicalDbg cfg hi spi S batch (some ob) w = hierarchical cfg hi spi S batch (some ob) w := by
  obtain ⟨M, hM⟩ := Multiset.le_iff_exists_add.1 hc.live
  have hlive : w.live = ptrOwn ob.cl.label + ({ob.id} + M) := by rw [hM]; abel
  have hid : ob.id ∈ w.live := by rw [hM]; simp
  unfold hierarchicalDbg hierarchical
  refine mbind_eq (Q := fun b w' => b = ob.cl.isInitialized cfg ∧ w' = w) rfl ?_ ?_
  · unfold isInitialized touch
    rw [wpM_bind, wpM_useK]
    refine ⟨by simpa using hid, ?_⟩
    rw [wp_some, wpM_pure]
    exact ⟨rfl, rfl⟩
  rintro b w' ⟨rfl, rfl⟩
  cases hin : ob.cl.isInitialized cfg with
  | false => rfl
  | true =>
    dsimp only
    cases hargs : hiArgsError spi ob.cl S with
    | some e => rfl
    | none =>
      dsimp only
      exact mbind_same (hiClusterDbg_eq hhi hd ok batch hc (hiArgsError_none hin hargs) hsp hlive)

end Scc
