/-
Breaking a cluster into two: moving points, and the assignment of points to the two clusters.
-/
import Verif.Proofs.HiEdges

namespace Scc

variable {F : Type} [FloatOps F]

/-- The list is stored from position `off` on. -/
def Seg (store : Buf Nat) (off : Nat) (l : List Nat) : Prop := ∀ (i x : Nat), l[i]? = some x → store.get (off + i) = some x

/-- Values of markers are there and at most `mk`. -/
def MarksLe (marks : Buf Nat) (mk : Nat) (X : List Nat) : Prop := ∀ x ∈ X, ∃ m, marks.get x = some m ∧ m ≤ mk

theorem MarkedExcept.perm {marks : Buf Nat} {marker : Nat} {X U V : List Nat} (h : MarkedExcept marks marker X U) (hp : U.Perm V) : MarkedExcept marks marker X V := by
  intro x hx
  obtain ⟨m, h1, h2⟩ := h x hx
  exact ⟨m, h1, h2.trans hp.mem_iff⟩

/-! ### Next marker -/

theorem nextMarker_spec {cfg : Cfg} (hcfg : 1 ≤ cfg.fast16Max) {store : Buf Nat} {marks : Buf Nat} {mk off : Nat} {X : List Nat} (hs : Seg store off X) (hm : MarksLe marks mk X) (hmk : mk ≤ cfg.fast16Max) :
    Wp (nextMarker cfg store ⟨X.length, mk, some off⟩ marks) fun r => ∃ mk', r.1 = ⟨X.length, mk', some off⟩ ∧ mk' ≤ cfg.fast16Max ∧ r.2.len = marks.len ∧
      (∀ x, x ∉ X → r.2.get x = marks.get x) ∧ ∀ x ∈ X, ∃ m, r.2.get x = some m ∧ m < mk' := by
  unfold nextMarker
  dsimp only
  by_cases h : mk = cfg.fast16Max
  · rw [if_pos h, wp_bind, wp_eq rfl, wp_bind]
    refine wp_forLt (fun i b => b.len = marks.len ∧ (∀ x, x ∉ X → b.get x = marks.get x) ∧ (∀ x ∈ X, ∃ m, b.get x = some m) ∧ ∀ x ∈ X.take i, b.get x = some 0) (Nat.zero_le _) ?_ ?_ ?_
    · exact ⟨rfl, fun _ _ => rfl, fun x hx => (hm x hx).imp fun m h => h.1, by simp⟩
    · rintro i b - hi ⟨h1, h2, h3, h4⟩
      rw [wp_bind, wp_eq (hs i _ (List.getElem?_eq_getElem hi)), Buf.wp_set]
      obtain ⟨m, hm'⟩ := h3 _ (List.getElem_mem hi)
      have hlt := Buf.lt_of_get hm'
      refine ⟨hlt, h1, ?_, ?_, ?_⟩
      · intro x hx
        rw [Buf.get_upd_ne _ _ (by rintro rfl; exact hx (List.getElem_mem hi))]; exact h2 x hx
      · intro x hx
        by_cases hxi : x = X[i]
        · rw [hxi, Buf.get_upd_self _ _ hlt]; exact ⟨0, rfl⟩
        · rw [Buf.get_upd_ne _ _ hxi]; exact h3 x hx
      · intro x hx
        by_cases hxi : x = X[i]
        · rw [hxi, Buf.get_upd_self _ _ hlt]
        · rw [Buf.get_upd_ne _ _ hxi]
          rw [List.take_succ_eq_append_getElem hi, List.mem_append, List.mem_singleton] at hx
          exact h4 x (hx.resolve_right hxi)
    · rintro b ⟨h1, h2, -, h4⟩
      rw [wp_pure]
      rw [List.take_length] at h4
      exact ⟨1, rfl, hcfg, h1, h2, fun x hx => ⟨0, h4 x hx, by omega⟩⟩
  · rw [if_neg h, wp_pure]
    refine ⟨mk + 1, rfl, by omega, rfl, fun _ _ => rfl, fun x hx => ?_⟩
    obtain ⟨m, h1, h2⟩ := hm x hx
    exact ⟨m, h1, by omega⟩

/-! ### Moving points -/

/-- The points of a cluster without the two centers. -/
def others (X : List Nat) (c1 c2 : Nat) : List Nat := X.filter fun x => decide (x ≠ c1 ∧ x ≠ c2)

/-- The cluster `X`, stored from position `off` on, is being broken: `A` and `B` are the points moved to the first and second cluster, in addition to the centers, and `U` are the points that are left. -/
structure PartsInv (store0 marks0 : Buf Nat) (off marker : Nat) (X : List Nat) (c1 c2 : Nat) (A B U : List Nat) (p : HiParts) : Prop where
  item1 : p.c1 = ⟨A.length + 1, marker, some off⟩
  item2 : p.c2 = ⟨B.length + 1, marker, some (off + X.length - 1 - B.length)⟩
  seg1 : Seg p.store off (c1 :: A)
  seg2 : Seg p.store (off + X.length - 1 - B.length) (B ++ [c2])
  len : p.store.len = store0.len
  outside : ∀ i, i < off ∨ off + X.length ≤ i → p.store.get i = store0.get i
  mlen : p.marks.len = marks0.len
  moutside : ∀ x, x ∉ X → p.marks.get x = marks0.get x
  marked : MarkedExcept p.marks marker X U
  perm : (others X c1 c2).Perm (A ++ B ++ U)

section
variable {store0 marks0 : Buf Nat} {off marker : Nat} {X : List Nat} {c1 c2 : Nat}

theorem PartsInv.nodup {A B U : List Nat} {p : HiParts} (h : PartsInv store0 marks0 off marker X c1 c2 A B U p) (hX : X.Nodup) : U.Nodup := by
  have h1 : (others X c1 c2).Nodup := hX.filter _
  rw [h.perm.nodup_iff] at h1
  exact (List.nodup_append.1 h1).2.1

theorem PartsInv.sub {A B U : List Nat} {p : HiParts} (h : PartsInv store0 marks0 off marker X c1 c2 A B U p) {x : Nat} (hx : x ∈ U) : x ∈ others X c1 c2 :=
  h.perm.mem_iff.2 (List.mem_append_right _ hx)

theorem others_sub {x : Nat} (hx : x ∈ others X c1 c2) : x ∈ X := List.mem_of_mem_filter hx

theorem PartsInv.congr {A B U V : List Nat} {p : HiParts} (h : PartsInv store0 marks0 off marker X c1 c2 A B U p) (hp : U.Perm V) :
    PartsInv store0 marks0 off marker X c1 c2 A B V p :=
  { h with marked := h.marked.perm hp, perm := h.perm.trans (hp.append_left _) }

theorem MarkedExcept.move {marks : Buf Nat} {U V : List Nat} {x : Nat} (h : MarkedExcept marks marker X U) (hn : U.Nodup) (hp : U.Perm (x :: V)) (hx : x < marks.len) :
    MarkedExcept (marks.upd x marker) marker X V := by
  intro y hy
  by_cases hyx : y = x
  · subst hyx
    refine ⟨marker, Buf.get_upd_self _ _ hx, ?_⟩
    have := hp.nodup_iff.1 hn
    rw [List.nodup_cons] at this
    simp [this.1]
  · obtain ⟨m, h1, h2⟩ := h y hy
    refine ⟨m, by rw [Buf.get_upd_ne _ _ hyx]; exact h1, h2.trans ?_⟩
    rw [hp.mem_iff, List.mem_cons]
    simp [hyx]

theorem moveTo1_spec {A B U V : List Nat} {x : Nat} {p : HiParts} (h : PartsInv store0 marks0 off marker X c1 c2 A B U p) (hX : X.Nodup) (hfit : off + X.length ≤ store0.len)
    (hp : U.Perm (x :: V)) (hroom : A.length + B.length + 3 ≤ X.length) :
    Wp (moveTo1 marker x p) (PartsInv store0 marks0 off marker X c1 c2 (A ++ [x]) B V) := by
  have hxU : x ∈ U := hp.mem_iff.2 (by simp)
  obtain ⟨m, hm, -⟩ := h.marked x (others_sub (h.sub hxU))
  have hxm := Buf.lt_of_get hm
  have hlen := h.len
  unfold moveTo1
  rw [wp_bind, Buf.wp_set]
  refine ⟨hxm, ?_⟩
  rw [h.item1, wp_bind, wp_eq rfl, wp_bind, Buf.wp_set]
  dsimp only
  refine ⟨by omega, ?_⟩
  rw [wp_pure]
  refine ⟨by simp, h.item2, ?_, ?_, h.len, ?_, h.mlen, ?_, h.marked.move (h.nodup hX) hp hxm, ?_⟩
  · intro i y hy
    dsimp only
    rcases Nat.lt_trichotomy i (A.length + 1) with hlt | heq | hgt
    · rw [Buf.get_upd_ne _ _ (by omega)]
      apply h.seg1 i y
      rw [← List.cons_append, List.getElem?_append_left (by simpa using hlt)] at hy
      exact hy
    · subst heq
      rw [← List.cons_append, List.getElem?_append_right (by simp)] at hy
      simp at hy
      subst hy
      rw [Buf.get_upd_self _ _ (by omega)]
    · rw [List.getElem?_eq_none (by simp; omega)] at hy; cases hy
  · intro i y hy
    dsimp only
    have hi : i < B.length + 1 := by
      by_contra hc
      rw [List.getElem?_eq_none (by simp; omega)] at hy; cases hy
    rw [Buf.get_upd_ne _ _ (by omega)]
    exact h.seg2 i y hy
  · intro i hi
    dsimp only
    rw [Buf.get_upd_ne _ _ (by omega)]
    exact h.outside i hi
  · intro y hy
    dsimp only
    rw [Buf.get_upd_ne _ _ (by rintro rfl; exact hy (others_sub (h.sub hxU)))]
    exact h.moutside y hy
  · refine h.perm.trans ?_
    refine (hp.append_left _).trans ?_
    rw [List.append_assoc, List.append_assoc, List.append_assoc]
    refine List.Perm.append_left _ ?_
    exact List.perm_middle

theorem moveTo2_spec {A B U V : List Nat} {x : Nat} {p : HiParts} (h : PartsInv store0 marks0 off marker X c1 c2 A B U p) (hX : X.Nodup) (hfit : off + X.length ≤ store0.len)
    (hp : U.Perm (x :: V)) (hroom : A.length + B.length + 3 ≤ X.length) :
    Wp (moveTo2 marker x p) (PartsInv store0 marks0 off marker X c1 c2 A (x :: B) V) := by
  have hxU : x ∈ U := hp.mem_iff.2 (by simp)
  obtain ⟨m, hm, -⟩ := h.marked x (others_sub (h.sub hxU))
  have hxm := Buf.lt_of_get hm
  have hlen := h.len
  unfold moveTo2
  rw [h.item2, wp_bind, wp_eq rfl, if_neg (by omega), wp_bind, Buf.wp_set]
  refine ⟨hxm, ?_⟩
  rw [wp_bind, Buf.wp_set]
  dsimp only
  refine ⟨by omega, ?_⟩
  rw [wp_pure]
  refine ⟨h.item1, ?_, ?_, ?_, h.len, ?_, h.mlen, ?_, h.marked.move (h.nodup hX) hp hxm, ?_⟩
  · simp only [List.length_cons, HiItem.mk.injEq, true_and, Option.some.injEq]; omega
  · intro i y hy
    dsimp only
    have hi : i < A.length + 1 := by
      by_contra hc
      rw [List.getElem?_eq_none (by simp; omega)] at hy; cases hy
    rw [Buf.get_upd_ne _ _ (by omega)]
    exact h.seg1 i y hy
  · intro i y hy
    dsimp only
    simp only [List.length_cons]
    cases i with
    | zero =>
      simp at hy
      subst hy
      rw [show off + X.length - 1 - (B.length + 1) + 0 = off + X.length - 1 - B.length - 1 by omega, Buf.get_upd_self _ _ (by omega)]
    | succ i =>
      rw [show off + X.length - 1 - (B.length + 1) + (i + 1) = off + X.length - 1 - B.length + i by omega, Buf.get_upd_ne _ _ (by omega)]
      exact h.seg2 i y (by simpa using hy)
  · intro i hi
    dsimp only
    rw [Buf.get_upd_ne _ _ (by omega)]
    exact h.outside i hi
  · intro y hy
    dsimp only
    rw [Buf.get_upd_ne _ _ (by rintro rfl; exact hy (others_sub (h.sub hxU)))]
    exact h.moutside y hy
  · refine h.perm.trans ?_
    refine (hp.append_left _).trans ?_
    rw [List.append_assoc, List.append_assoc]
    refine List.Perm.append_left _ ?_
    exact List.perm_middle

theorem drop_eq_cons {xs : List Nat} {i : Nat} (hi : i < xs.length) : xs.drop i = xs[i] :: xs.drop (i + 1) := List.drop_eq_getElem_cons hi

theorem moveArrTo1_spec {A B U V xs : List Nat} {ids : Buf Nat} {p : HiParts} (h : PartsInv store0 marks0 off marker X c1 c2 A B U p) (hX : X.Nodup) (hfit : off + X.length ≤ store0.len)
    (hids : ∀ (i x : Nat), xs[i]? = some x → ids.get i = some x) (hp : U.Perm (xs ++ V)) (hroom : A.length + B.length + xs.length + 2 ≤ X.length) :
    Wp (moveArrTo1 marker xs.length ids p) (PartsInv store0 marks0 off marker X c1 c2 (A ++ xs) B V) := by
  unfold moveArrTo1
  refine wp_forNe (fun i p => PartsInv store0 marks0 off marker X c1 c2 (A ++ xs.take i) B (xs.drop i ++ V) p) (Nat.zero_le _) ?_ ?_ ?_
  · simpa using h.congr hp
  · intro i p _ hi h'
    rw [wp_bind, wp_eq (hids i _ (List.getElem?_eq_getElem hi))]
    have := moveTo1_spec (V := xs.drop (i + 1) ++ V) (x := xs[i]) h' hX hfit (by rw [drop_eq_cons hi]; exact List.Perm.refl _) (by simp; omega)
    rwa [List.append_assoc, ← List.take_succ_eq_append_getElem hi] at this
  · intro p h'
    simpa using h'

theorem moveArrTo2_spec {A B U V xs : List Nat} {ids : Buf Nat} {p : HiParts} (h : PartsInv store0 marks0 off marker X c1 c2 A B U p) (hX : X.Nodup) (hfit : off + X.length ≤ store0.len)
    (hids : ∀ (i x : Nat), xs[i]? = some x → ids.get i = some x) (hp : U.Perm (xs ++ V)) (hroom : A.length + B.length + xs.length + 2 ≤ X.length) :
    Wp (moveArrTo2 marker xs.length ids p) (PartsInv store0 marks0 off marker X c1 c2 A (xs.reverse ++ B) V) := by
  unfold moveArrTo2
  refine wp_forNe (fun i p => PartsInv store0 marks0 off marker X c1 c2 A ((xs.take i).reverse ++ B) (xs.drop i ++ V) p) (Nat.zero_le _) ?_ ?_ ?_
  · simpa using h.congr hp
  · intro i p _ hi h'
    rw [wp_bind, wp_eq (hids i _ (List.getElem?_eq_getElem hi))]
    have := moveTo2_spec (V := xs.drop (i + 1) ++ V) (x := xs[i]) h' hX hfit (by rw [drop_eq_cons hi]; exact List.Perm.refl _) (by simp; omega)
    rwa [← List.cons_append, show xs[i] :: (xs.take i).reverse = (xs.take (i + 1)).reverse by rw [List.take_succ_eq_append_getElem hi, List.reverse_append]; rfl] at this
  · intro p h'
    simpa using h'

end

/-! ### Assigning points to the two clusters -/

section
variable {store0 marks0 : Buf Nat} {off marker : Nat} {X : List Nat} {c1 c2 : Nat} {e1 e2 : Buf (Nat × F)} {d1 d2 : Nat → F} {l1 l2 : Nat}

/-- State of the assignment. -/
structure SplitInv (store0 marks0 : Buf Nat) (off marker : Nat) (X : List Nat) (c1 c2 : Nat) (e1 e2 : Buf (Nat × F)) (d1 d2 : Nat → F) (l1 l2 : Nat) (A B U : List Nat)
    (s : HiSplit) : Prop where
  parts : PartsInv store0 marks0 off marker X c1 c2 A B U s.parts
  edges1 : EdgeInv e1 d1 X s.next1 s.last1 U
  edges2 : EdgeInv e2 d2 X s.next2 s.last2 U
  knn1 : s.knn1.len = l1
  knn2 : s.knn2.len = l2

/-- Points are added to the clusters: `k` in total, and none to the second cluster if no point is closer to the second center than another point is to the first. -/
structure Grow (X : List Nat) (c1 c2 : Nat) (d1 d2 : Nat → F) (k : Nat) (A B A' B' : List Nat) : Prop where
  total : A'.length + B'.length = A.length + B.length + k
  first : A.length ≤ A'.length
  second : B.length ≤ B'.length
  tie : (∀ x ∈ others X c1 c2, ∀ y ∈ others X c1 c2, FloatOps.le (d1 x) (d2 y) = true) → B'.length = B.length

theorem knn1of_spec {A B U : List Nat} {s : HiSplit} {k : Nat} (h : SplitInv store0 marks0 off marker X c1 c2 e1 e2 d1 d2 l1 l2 A B U s) (hX : X.Nodup) (hk : k ≤ U.length) (hl : k ≤ l1) :
    Wp (s.knn1of e1 marker k) fun r => SplitInv store0 marks0 off marker X c1 c2 e1 e2 d1 d2 l1 l2 A B U r.2 ∧ r.2.parts = s.parts ∧ r.2.next2 = s.next2 ∧ r.2.last2 = s.last2 ∧ r.2.knn2 = s.knn2 ∧
      ∃ xs V, (0 < k → ∃ e, e1.get r.1 = some e ∧ e.1 ∈ U ∧ e.2 = d1 e.1 ∧ Outermost d1 xs e.1) ∧ Takes d1 U k xs V ∧ (∀ (i x : Nat), xs[i]? = some x → r.2.knn1.get i = some x) ∧ EdgeInv e1 d1 X r.2.next1 r.1 V := by
  unfold HiSplit.knn1of
  rw [wp_bind]
  refine (nextKnn_spec h.parts.marked (h.parts.nodup hX) h.edges1 hk (by rw [h.knn1]; exact hl)).mono ?_
  rintro ⟨t, nx, o⟩ ⟨xs, V, g1, g3, g4, g5, g6, g7⟩
  rw [wp_pure]
  exact ⟨⟨h.parts, g5, h.edges2, g3.trans h.knn1, h.knn2⟩, rfl, rfl, rfl, rfl, xs, V, g7, g1, g4, g6⟩

theorem knn2of_spec {A B U : List Nat} {s : HiSplit} {k : Nat} (h : SplitInv store0 marks0 off marker X c1 c2 e1 e2 d1 d2 l1 l2 A B U s) (hX : X.Nodup) (hk : k ≤ U.length) (hl : k ≤ l2) :
    Wp (s.knn2of e2 marker k) fun r => SplitInv store0 marks0 off marker X c1 c2 e1 e2 d1 d2 l1 l2 A B U r.2 ∧ r.2.parts = s.parts ∧ r.2.next1 = s.next1 ∧ r.2.last1 = s.last1 ∧ r.2.knn1 = s.knn1 ∧
      ∃ xs V, (0 < k → ∃ e, e2.get r.1 = some e ∧ e.1 ∈ U ∧ e.2 = d2 e.1 ∧ Outermost d2 xs e.1) ∧ Takes d2 U k xs V ∧ (∀ (i x : Nat), xs[i]? = some x → r.2.knn2.get i = some x) ∧ EdgeInv e2 d2 X r.2.next2 r.1 V := by
  unfold HiSplit.knn2of
  rw [wp_bind]
  refine (nextKnn_spec h.parts.marked (h.parts.nodup hX) h.edges2 hk (by rw [h.knn2]; exact hl)).mono ?_
  rintro ⟨t, nx, o⟩ ⟨xs, V, g1, g3, g4, g5, g6, g7⟩
  rw [wp_pure]
  exact ⟨⟨h.parts, h.edges1, g5, h.knn1, g3.trans h.knn2⟩, rfl, rfl, rfl, rfl, xs, V, g7, g1, g4, g6⟩

/-- The points found in list 1 are moved to cluster 1. -/
theorem accept1 {A B U V xs : List Nat} {s : HiSplit} {t k : Nat} (h : SplitInv store0 marks0 off marker X c1 c2 e1 e2 d1 d2 l1 l2 A B U s) (hX : X.Nodup) (hfit : off + X.length ≤ store0.len)
    (hk : xs.length = k) (hp : U.Perm (xs ++ V)) (hids : ∀ (i x : Nat), xs[i]? = some x → s.knn1.get i = some x) (he : EdgeInv e1 d1 X s.next1 t V) (hroom : A.length + B.length + k + 2 ≤ X.length) :
    Wp (moveArrTo1 marker k s.knn1 s.parts) fun p => SplitInv store0 marks0 off marker X c1 c2 e1 e2 d1 d2 l1 l2 (A ++ xs) B V { s with parts := p, last1 := t } := by
  subst hk
  refine (moveArrTo1_spec h.parts hX hfit hids hp hroom).mono fun p hpi => ⟨hpi, he, ?_, h.knn1, h.knn2⟩
  exact h.edges2.mono (h.parts.nodup hX) (hpi.nodup hX) fun x hx => hp.mem_iff.2 (List.mem_append_right _ hx)

/-- The points found in list 2 are moved to cluster 2. -/
theorem accept2 {A B U V xs : List Nat} {s : HiSplit} {t k : Nat} (h : SplitInv store0 marks0 off marker X c1 c2 e1 e2 d1 d2 l1 l2 A B U s) (hX : X.Nodup) (hfit : off + X.length ≤ store0.len)
    (hk : xs.length = k) (hp : U.Perm (xs ++ V)) (hids : ∀ (i x : Nat), xs[i]? = some x → s.knn2.get i = some x) (he : EdgeInv e2 d2 X s.next2 t V) (hroom : A.length + B.length + k + 2 ≤ X.length) :
    Wp (moveArrTo2 marker k s.knn2 s.parts) fun p => SplitInv store0 marks0 off marker X c1 c2 e1 e2 d1 d2 l1 l2 A (xs.reverse ++ B) V { s with parts := p, last2 := t } := by
  subst hk
  refine (moveArrTo2_spec h.parts hX hfit hids hp hroom).mono fun p hpi => ⟨hpi, ?_, he, h.knn1, h.knn2⟩
  exact h.edges1.mono (h.parts.nodup hX) (hpi.nodup hX) fun x hx => hp.mem_iff.2 (List.mem_append_right _ hx)

theorem splitFirst_spec {U : List Nat} {s : HiSplit} {S : Nat} (h : SplitInv store0 marks0 off marker X c1 c2 e1 e2 d1 d2 l1 l2 [] [] U s) (hX : X.Nodup) (hfit : off + X.length ≤ store0.len)
    (hS : 2 ≤ S) (hXS : 2 * S ≤ X.length) (hU : X.length - 2 ≤ U.length) (hl1 : S ≤ l1) (hl2 : S ≤ l2) :
    Wp (splitFirst e1 e2 S marker s) fun s' => ∃ A B V, SplitInv store0 marks0 off marker X c1 c2 e1 e2 d1 d2 l1 l2 A B V s' ∧ A.length = S - 1 ∧ B.length = S - 1 ∧
      ∃ B0, B.Perm B0 ∧ Cores d1 d2 (S - 1) U A B0 V := by
  unfold splitFirst
  rw [wp_bind]
  refine (knn1of_spec (k := S - 1) h hX (by omega) (by omega)).mono ?_
  rintro ⟨t1, s1⟩ ⟨g1, g2, g3, g4, g5, xs, V, g6, gT, g9, g10⟩
  dsimp only at g1 g2 g3 g4 g5 g6 g9 g10 ⊢
  have g7 := gT.count
  have g8 := gT.split
  rw [wp_bind]
  refine (knn2of_spec (k := S - 1) g1 hX (by omega) (by omega)).mono ?_
  rintro ⟨t2, s2⟩ ⟨k1, k2, k3, k4, k5, ys, W, k6, kT, k9, k10⟩
  dsimp only at k1 k2 k3 k4 k5 k6 k9 k10 ⊢
  have k7 := kT.count
  have k8 := kT.split
  obtain ⟨a, ha, -, had, hal⟩ := g6 (by omega)
  obtain ⟨b, hb, -, hbd, hbl⟩ := k6 (by omega)
  rw [wp_bind, wp_eq ha, wp_bind, wp_eq hb]
  have lV : V.length = U.length - (S - 1) := by have := g8.length_eq; rw [List.length_append] at this; omega
  have lW : W.length = U.length - (S - 1) := by have := k8.length_eq; rw [List.length_append] at this; omega
  by_cases hle : FloatOps.le b.2 a.2 = true
  · rw [if_pos hle, wp_bind]
    refine (accept1 (t := t1) k1 hX hfit g7 g8 (by rw [k5]; exact g9) (by rw [k3]; exact g10) (by simp; omega)).mono fun p hp => ?_
    rw [wp_bind]
    refine (knn2of_spec (k := S - 1) hp hX (by omega) (by omega)).mono ?_
    rintro ⟨t, s3⟩ ⟨m1, -, -, -, -, zs, Z, -, mT, m9, m10⟩
    dsimp only at m1 m9 m10 ⊢
    have m7 := mT.count
    have m8 := mT.split
    rw [wp_bind]
    refine (accept2 (t := t) m1 hX hfit m7 m8 m9 m10 (by simp; omega)).mono fun p hp => ?_
    rw [wp_pure]
    exact ⟨_, _, _, hp, by simpa using g7, by simpa using m7, zs, by simpa using List.reverse_perm zs, by simpa using Cores.first gT kT hal hbl (by rw [← had, ← hbd]; exact hle) mT⟩
  · rw [if_neg hle, wp_bind]
    refine (accept2 (t := t2) k1 hX hfit k7 k8 k9 k10 (by simp; omega)).mono fun p hp => ?_
    rw [wp_bind]
    refine (knn1of_spec (k := S - 1) hp hX (by omega) (by omega)).mono ?_
    rintro ⟨t, s3⟩ ⟨m1, -, -, -, -, zs, Z, -, mT, m9, m10⟩
    dsimp only at m1 m9 m10 ⊢
    have m7 := mT.count
    have m8 := mT.split
    rw [wp_bind]
    refine (accept1 (t := t) m1 hX hfit m7 m8 m9 m10 (by simp; omega)).mono fun p hp => ?_
    rw [wp_pure]
    exact ⟨_, _, _, hp, by simpa using m7, by simpa using k7, ys, by simpa using List.reverse_perm ys,
      by simpa using Cores.second gT kT hal hbl (by rw [← had, ← hbd]; simpa using hle) mT⟩

/-- Points are assigned in rounds: whatever the rounds do with the points `V` that are left, they do that with `U` as well. -/
def Assigns (d1 d2 : Nat → F) (k : Nat) (U A B V A' B' : List Nat) : Prop :=
  ∀ As Bs, Rounds d1 d2 k V As Bs → ∃ As' Bs', Rounds d1 d2 k U As' Bs' ∧ (A ++ As').Perm (A' ++ As) ∧ (B ++ Bs').Perm (B' ++ Bs)

theorem Assigns.refl {k : Nat} {U A B : List Nat} : Assigns d1 d2 k U A B U A B := fun As Bs h => ⟨As, Bs, h, .refl _, .refl _⟩

theorem Assigns.trans {k : Nat} {U A B V A' B' W A'' B'' : List Nat} (h : Assigns d1 d2 k U A B V A' B') (h' : Assigns d1 d2 k V A' B' W A'' B'') : Assigns d1 d2 k U A B W A'' B'' := by
  intro As Bs hr
  obtain ⟨As1, Bs1, r1, p1, q1⟩ := h' As Bs hr
  obtain ⟨As2, Bs2, r2, p2, q2⟩ := h As1 Bs1 r1
  exact ⟨As2, Bs2, r2, p2.trans p1, q2.trans q1⟩

theorem Assigns.all {k : Nat} {U A B V A' B' : List Nat} (h : Assigns d1 d2 k U A B V A' B') (hV : V = []) : ∃ As Bs, Rounds d1 d2 k U As Bs ∧ (A ++ As).Perm A' ∧ (B ++ Bs).Perm B' := by
  subst hV
  obtain ⟨As, Bs, h1, h2, h3⟩ := h [] [] .done
  exact ⟨As, Bs, h1, by simpa using h2, by simpa using h3⟩

theorem splitBatch_spec {A B U : List Nat} {s : HiSplit} {k : Nat} (h : SplitInv store0 marks0 off marker X c1 c2 e1 e2 d1 d2 l1 l2 A B U s) (hX : X.Nodup) (hfit : off + X.length ≤ store0.len)
    (hk : 0 < k) (hkU : k ≤ U.length) (hroom : A.length + B.length + k + 2 ≤ X.length) (hl1 : k ≤ l1) (hl2 : k ≤ l2) :
    Wp (splitBatch e1 e2 marker k s) fun s' => ∃ A' B' V, SplitInv store0 marks0 off marker X c1 c2 e1 e2 d1 d2 l1 l2 A' B' V s' ∧ Grow X c1 c2 d1 d2 k A B A' B' ∧
      ∀ K, k = min K U.length → Assigns d1 d2 K U A B V A' B' := by
  unfold splitBatch
  rw [wp_bind]
  refine (knn1of_spec h hX hkU hl1).mono ?_
  rintro ⟨t1, s1⟩ ⟨g1, g2, g3, g4, g5, xs, V, g6, gT, g9, g10⟩
  dsimp only at g1 g2 g3 g4 g5 g6 g9 g10 ⊢
  have g7 := gT.count
  have g8 := gT.split
  rw [wp_bind]
  refine (knn2of_spec g1 hX hkU hl2).mono ?_
  rintro ⟨t2, s2⟩ ⟨k1, k2, k3, k4, k5, ys, W, k6, kT, k9, k10⟩
  dsimp only at k1 k2 k3 k4 k5 k6 k9 k10 ⊢
  have k7 := kT.count
  have k8 := kT.split
  obtain ⟨a, ha, haU, had, hal⟩ := g6 hk
  obtain ⟨b, hb, hbU, hbd, hbl⟩ := k6 hk
  have hne : U ≠ [] := by rintro rfl; cases haU
  rw [wp_bind, wp_eq ha, wp_bind, wp_eq hb]
  by_cases hle : FloatOps.le a.2 b.2 = true
  · rw [if_pos hle, wp_bind]
    refine (accept1 (t := t1) k1 hX hfit g7 g8 (by rw [k5]; exact g9) (by rw [k3]; exact g10) hroom).mono fun p hp => ?_
    rw [wp_pure]
    refine ⟨_, _, _, hp, ⟨by simp [g7]; omega, by simp, le_rfl, fun _ => rfl⟩, ?_⟩
    rintro K rfl As Bs hr
    exact ⟨xs ++ As, Bs, .first hne gT kT hal hbl (by rw [← had, ← hbd]; exact hle) hr, by rw [List.append_assoc], .refl _⟩
  · rw [if_neg hle, wp_bind]
    refine (accept2 (t := t2) k1 hX hfit k7 k8 k9 k10 hroom).mono fun p hp => ?_
    rw [wp_pure]
    refine ⟨_, _, _, hp, ⟨by simp [k7]; omega, le_rfl, by simp, fun htie => ?_⟩, ?_⟩
    rotate_left
    · rintro K rfl As Bs hr
      refine ⟨As, ys ++ Bs, .second hne gT kT hal hbl (by rw [← had, ← hbd]; simpa using hle) hr, .refl _, ?_⟩
      rw [← List.append_assoc]
      exact (List.perm_append_comm.trans ((List.reverse_perm ys).symm.append_right _)).append_right _
    have := htie a.1 (h.parts.sub haU) b.1 (h.parts.sub hbU)
    rw [← had, ← hbd] at this
    exact absurd this hle

theorem Grow.trans {A B A' B' A'' B'' : List Nat} {k k' : Nat} (h : Grow X c1 c2 d1 d2 k A B A' B') (h' : Grow X c1 c2 d1 d2 k' A' B' A'' B'') : Grow X c1 c2 d1 d2 (k + k') A B A'' B'' :=
  ⟨by have := h.total; have := h'.total; omega, h.first.trans h'.first, h.second.trans h'.second, fun ht => (h'.tie ht).trans (h.tie ht)⟩

theorem Grow.refl {A B : List Nat} : Grow X c1 c2 d1 d2 0 A B A B := ⟨rfl, le_rfl, le_rfl, fun _ => rfl⟩

theorem SplitInv.left {A B U : List Nat} {s : HiSplit} (h : SplitInv store0 marks0 off marker X c1 c2 e1 e2 d1 d2 l1 l2 A B U s) : U.length = (others X c1 c2).length - A.length - B.length := by
  have := h.parts.perm.length_eq
  simp at this; omega

theorem splitBatches_spec (hX : X.Nodup) (hfit : off + X.length ≤ store0.len) (ho : X.length - 2 ≤ (others X c1 c2).length) (fuel : Nat) {A B U : List Nat} {s : HiSplit} {left k : Nat}
    (h : SplitInv store0 marks0 off marker X c1 c2 e1 e2 d1 d2 l1 l2 A B U s) (hk : 0 < k) (hroom : A.length + B.length + left + 2 = X.length) (hl1 : k ≤ l1) (hl2 : k ≤ l2) (hf : left < fuel) :
    Wp (splitBatches e1 e2 marker fuel left k s) fun s' => ∃ A' B' V, SplitInv store0 marks0 off marker X c1 c2 e1 e2 d1 d2 l1 l2 A' B' V s' ∧ Grow X c1 c2 d1 d2 left A B A' B' ∧
      (U.length = left → V = [] ∧ Assigns d1 d2 k U A B V A' B') := by
  induction fuel generalizing A B U s left k with
  | zero => omega
  | succ fuel ih =>
    unfold splitBatches
    by_cases h0 : left = 0
    · rw [if_pos h0, wp_pure]
      subst h0
      exact ⟨A, B, U, h, Grow.refl, fun h0 => ⟨List.length_eq_zero_iff.1 h0, Assigns.refl⟩⟩
    · rw [if_neg h0]
      dsimp only
      have hk1 : (if left < k then left else k) ≤ left ∧ (if left < k then left else k) ≤ k ∧ 0 < (if left < k then left else k) ∧ (if left < k then left else k) = min k left := by split <;> omega
      revert hk1
      generalize (if left < k then left else k) = k'
      rintro ⟨q1, q2, q3, q4⟩
      rw [wp_bind]
      have hU := h.left
      refine (splitBatch_spec h hX hfit q3 (by omega) (by omega) (by omega) (by omega)).mono ?_
      rintro s' ⟨A', B', V, g1, g2, gA⟩
      have := g2.total
      have hV := g1.left
      refine (ih (left := left - k') (k := k') g1 q3 (by omega) (by omega) (by omega) (by omega)).mono ?_
      rintro s'' ⟨A'', B'', V', g3, g4, gB⟩
      refine ⟨A'', B'', V', g3, ?_, fun hUl => ?_⟩
      · have := g2.trans g4
        rwa [show k' + (left - k') = left by omega] at this
      · obtain ⟨hV', hB⟩ := gB (by omega)
        refine ⟨hV', (gA k (by omega)).trans ?_⟩
        by_cases hkk : k' = k
        · rwa [hkk] at hB
        · have hVn : V = [] := List.length_eq_zero_iff.1 (by omega)
          subst hVn hV'
          intro As Bs hr
          obtain ⟨As', Bs', r1, r2⟩ := hB [] [] .done
          cases r1 with
          | done => exact ⟨As, Bs, hr, by simpa using (r2.1.append_right As), by simpa using (r2.2.append_right Bs)⟩
          | first h _ _ _ _ _ _ => exact absurd rfl h
          | second h _ _ _ _ _ _ => exact absurd rfl h

theorem splitSingle_spec {A B U : List Nat} {s : HiSplit} (h : SplitInv store0 marks0 off marker X c1 c2 e1 e2 d1 d2 l1 l2 A B U s) (hX : X.Nodup) (hfit : off + X.length ≤ store0.len)
    (hkU : 1 ≤ U.length) (hroom : A.length + B.length + 1 + 2 ≤ X.length) :
    Wp (splitSingle e1 e2 marker s) fun s' => ∃ A' B' V, SplitInv store0 marks0 off marker X c1 c2 e1 e2 d1 d2 l1 l2 A' B' V s' ∧ Grow X c1 c2 d1 d2 1 A B A' B' ∧
      Assigns d1 d2 1 U A B V A' B' := by
  have hn := h.parts.nodup hX
  have hwalk : ∀ {e : Buf (Nat × F)} {d : Nat → F} {next : Buf (Option Nat)} {last : Nat}, EdgeInv e d X next last U →
      Wp (nextDist e s.parts.marks marker last e.len next) fun r => EdgeInv e d X r.2 last U ∧ ∃ a V, e.get r.1 = some a ∧ a.1 ∈ U ∧ a.2 = d a.1 ∧ Takes d U 1 [a.1] V ∧ Outermost d [a.1] a.1 ∧ EdgeInv e d X r.2 r.1 V := by
    rintro e d next last ⟨h0, qs, h1, h2, h3, hord⟩
    have hex : ∃ q ∈ qs, edgeHead e q ∈ U := by
      obtain ⟨x, hx⟩ := List.exists_mem_of_length_pos (l := U) (by omega)
      have := h3.mem_iff.2 hx
      rw [List.mem_filter, List.mem_map] at this
      obtain ⟨⟨q, hq, rfl⟩, -⟩ := this
      exact ⟨q, hq, hx⟩
    refine (nextDist_spec h.parts.marked e.len next qs h1 (fun q hq => by obtain ⟨a, h, h', -⟩ := h2 q hq; exact ⟨a, h, h'⟩) hex (by have := h1.length; omega)).mono ?_
    rintro ⟨t, nx⟩ ⟨del, rest, rfl, g1, g2, g3, g4, g5⟩
    dsimp only at g2 g3 g4 g5 ⊢
    obtain ⟨a, ha, haX, had⟩ := h2 t (by simp)
    have hdel : (del.map (edgeHead e)).filter (fun x => decide (x ∈ U)) = [] := by
      rw [List.filter_eq_nil_iff]
      intro x hx
      rw [List.mem_map] at hx
      obtain ⟨q, hq, rfl⟩ := hx
      simpa using g1 q hq
    rw [List.map_append, List.filter_append, hdel, List.nil_append] at h3
    have hmem : ∀ q ∈ t :: rest, ∃ a, e.get q = some a ∧ a.1 ∈ X ∧ a.2 = d a.1 := fun q hq => h2 q (List.mem_append_right _ hq)
    rw [edgeHead_eq ha] at g2
    have h3' := h3
    rw [List.map_cons, edgeHead_eq ha, List.filter_cons_of_pos (by simpa using g2)] at h3'
    have ho1 := hord.sublist (List.Sublist.map (edgeHead e) (List.sublist_append_right del (t :: rest)))
    have ho2 := ho1.sublist (List.Sublist.map (edgeHead e) (List.sublist_cons_self t rest))
    have ho3 := ho1
    rw [List.map_cons, edgeHead_eq ha] at ho3
    have htake : Takes d U 1 [a.1] ((rest.map (edgeHead e)).filter fun x => decide (x ∈ U)) := by
      refine ⟨h3'.symm, rfl, fun x hx y hy => ?_⟩
      rw [List.mem_singleton] at hx
      subst hx
      exact (List.pairwise_cons.1 ho3.1).1 y (List.mem_of_mem_filter hy)
    have hlast : Outermost d [a.1] a.1 := ⟨by simp, fun x hx => by rw [List.mem_singleton] at hx; subst hx; exact ho3.2 _ (by simp)⟩
    refine ⟨⟨g3.trans h0, t :: rest, g4, hmem, h3, ho1⟩, a, _, ha, g2, had, htake, hlast, g3.trans h0, rest, g4.2.2, fun q hq => hmem q (List.mem_cons_of_mem _ hq), ?_, ho2⟩
    have : (rest.map (edgeHead e)).filter (fun x => decide (x ∈ (rest.map (edgeHead e)).filter fun x => decide (x ∈ U))) = (rest.map (edgeHead e)).filter fun x => decide (x ∈ U) := by
      apply List.filter_congr
      intro x hx
      simp only [List.mem_filter, hx, true_and, decide_eq_true_eq]
    rw [this]
  unfold splitSingle
  rw [wp_bind]
  refine (hwalk h.edges1).mono ?_
  rintro ⟨t1, nx1⟩ ⟨g1, a, V, ga, gaU, gad, gT, gO, gE⟩
  rw [wp_bind]
  refine (hwalk h.edges2).mono ?_
  rintro ⟨t2, nx2⟩ ⟨k1, b, W, kb, kbU, kbd, kT, kO, kE⟩
  dsimp only at g1 ga gE k1 kb kE ⊢
  have gp : U.Perm (a.1 :: V) := gT.split
  have kp : U.Perm (b.1 :: W) := kT.split
  have hne : U ≠ [] := by rintro rfl; cases gaU
  have hmin : min 1 U.length = 1 := by omega
  have gT' : Takes d1 U (min 1 U.length) [a.1] V := by rw [hmin]; exact gT
  have kT' : Takes d2 U (min 1 U.length) [b.1] W := by rw [hmin]; exact kT
  rw [wp_bind, wp_eq ga, wp_bind, wp_eq kb]
  by_cases hle : FloatOps.le a.2 b.2 = true
  · rw [if_pos hle, wp_bind]
    refine (moveTo1_spec h.parts hX hfit gp (by omega)).mono fun p hp => ?_
    rw [wp_pure]
    refine ⟨_, _, V, ⟨hp, gE, k1.mono hn (hp.nodup hX) (fun x hx => gp.mem_iff.2 (List.mem_cons_of_mem _ hx)), h.knn1, h.knn2⟩, ⟨by simp; omega, by simp, le_rfl, fun _ => rfl⟩, ?_⟩
    intro As Bs hr
    exact ⟨[a.1] ++ As, Bs, .first hne gT' kT' gO kO (by rw [← gad, ← kbd]; exact hle) hr, by rw [List.append_assoc], .refl _⟩
  · rw [if_neg hle, wp_bind]
    refine (moveTo2_spec h.parts hX hfit kp (by omega)).mono fun p hp => ?_
    rw [wp_pure]
    refine ⟨_, _, W, ⟨hp, g1.mono hn (hp.nodup hX) (fun x hx => kp.mem_iff.2 (List.mem_cons_of_mem _ hx)), kE, h.knn1, h.knn2⟩, ⟨by simp; omega, le_rfl, by simp, fun htie => ?_⟩, ?_⟩
    rotate_left
    · intro As Bs hr
      exact ⟨As, [b.1] ++ Bs, .second hne gT' kT' gO kO (by rw [← gad, ← kbd]; simpa using hle) hr, .refl _, List.perm_middle⟩
    have := htie a.1 (h.parts.sub gaU) b.1 (h.parts.sub kbU)
    rw [← gad, ← kbd] at this
    exact absurd this hle

theorem splitRest_spec (hX : X.Nodup) (hfit : off + X.length ≤ store0.len) (ho : X.length - 2 ≤ (others X c1 c2).length) {A B U : List Nat} {s : HiSplit} {left S : Nat} (batch : Bool)
    (h : SplitInv store0 marks0 off marker X c1 c2 e1 e2 d1 d2 l1 l2 A B U s) (hS : 0 < S) (hroom : A.length + B.length + left + 2 = X.length) (hl1 : S ≤ l1) (hl2 : S ≤ l2) :
    Wp (splitRest e1 e2 S marker left batch s) fun s' => ∃ A' B' V, SplitInv store0 marks0 off marker X c1 c2 e1 e2 d1 d2 l1 l2 A' B' V s' ∧ Grow X c1 c2 d1 d2 left A B A' B' ∧
      (U.length = left → V = [] ∧ ∃ As Bs, Rounds d1 d2 (if batch then S else 1) U As Bs ∧ (A ++ As).Perm A' ∧ (B ++ Bs).Perm B') := by
  unfold splitRest
  cases batch with
  | true =>
    refine (splitBatches_spec hX hfit ho (left + 1) h hS hroom hl1 hl2 (by omega)).mono ?_
    rintro s' ⟨A', B', V, g1, g2, g3⟩
    exact ⟨A', B', V, g1, g2, fun hU => ⟨(g3 hU).1, (g3 hU).2.all (g3 hU).1⟩⟩
  | false =>
    refine wp_forLt (fun i s' => ∃ A' B' V, SplitInv store0 marks0 off marker X c1 c2 e1 e2 d1 d2 l1 l2 A' B' V s' ∧ Grow X c1 c2 d1 d2 i A B A' B' ∧
        Assigns d1 d2 1 U A B V A' B') (Nat.zero_le _) ⟨A, B, U, h, Grow.refl, Assigns.refl⟩ ?_ ?_
    rotate_left
    · rintro s' ⟨A', B', V, g1, g2, g3⟩
      refine ⟨A', B', V, g1, g2, fun hU => ?_⟩
      have h1 := g1.left
      have h2 := h.left
      have h3 := g2.total
      have hV : V = [] := List.length_eq_zero_iff.1 (by omega)
      exact ⟨hV, g3.all hV⟩
    rintro i s' - hi ⟨A', B', V, g1, g2, gA⟩
    have := g1.left
    have := g2.total
    refine (splitSingle_spec g1 hX hfit (by omega) (by omega)).mono ?_
    rintro s'' ⟨A'', B'', V', g3, g4, gB⟩
    exact ⟨A'', B'', V', g3, g2.trans g4, gA.trans gB⟩

end

end Scc
