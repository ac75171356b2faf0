/-
Breaking a cluster into two: the edge lists and the assignment together.
-/
import Verif.Proofs.HiSplit

namespace Scc

variable {F : Type} [FloatOps F]

theorem others_perm {X : List Nat} {c1 c2 : Nat} (hX : X.Nodup) (h1 : c1 ∈ X) (h2 : c2 ∈ X) (hne : c1 ≠ c2) : X.Perm (c1 :: c2 :: others X c1 c2) := by
  refine (List.perm_ext_iff_of_nodup hX ?_).2 fun x => ?_
  · rw [List.nodup_cons, List.nodup_cons]
    refine ⟨?_, ?_, hX.filter _⟩
    · rw [List.mem_cons, others, List.mem_filter]; simp [hne]
    · rw [others, List.mem_filter]; simp
  · simp only [List.mem_cons, others, List.mem_filter, decide_eq_true_eq]
    constructor
    · intro hx
      by_cases ha : x = c1
      · exact Or.inl ha
      · by_cases hb : x = c2
        · exact Or.inr (Or.inl hb)
        · exact Or.inr (Or.inr ⟨hx, ha, hb⟩)
    · rintro (rfl | rfl | ⟨h, -⟩)
      · exact h1
      · exact h2
      · exact h

theorem others_perm_self {X : List Nat} {c : Nat} (hX : X.Nodup) (h1 : c ∈ X) : X.Perm (c :: others X c c) := by
  refine (List.perm_ext_iff_of_nodup hX ?_).2 fun x => ?_
  · rw [List.nodup_cons]
    refine ⟨?_, hX.filter _⟩
    rw [others, List.mem_filter]; simp
  · simp only [List.mem_cons, others, List.mem_filter, decide_eq_true_eq]
    constructor
    · intro hx
      by_cases ha : x = c
      · exact Or.inl ha
      · exact Or.inr ⟨hx, ha, ha⟩
    · rintro (rfl | ⟨h, -⟩)
      · exact h1
      · exact h

theorem others_length {X : List Nat} {c1 c2 : Nat} (hX : X.Nodup) (h1 : c1 ∈ X) (h2 : c2 ∈ X) : X.length - 2 ≤ (others X c1 c2).length := by
  by_cases hne : c1 = c2
  · subst hne
    have := (others_perm_self hX h1).length_eq
    simp at this; omega
  · have := (others_perm hX h1 h2 hne).length_eq
    simp at this; omega

/-- The two parts of a broken cluster: each has at least `S` points of the cluster, and together as many as the cluster. If the centers are different the parts make up the cluster. -/
structure Halves (S : Nat) (batch : Bool) (dist : Nat → Nat → F) (X : List Nat) (c1 c2 : Nat) (A B : List Nat) : Prop where
  nodup1 : A.Nodup
  nodup2 : B.Nodup
  sub1 : A ⊆ X
  sub2 : B ⊆ X
  size1 : S ≤ A.length
  size2 : S ≤ B.length
  total : A.length + B.length = X.length
  parts : c1 ≠ c2 → (A ++ B).Perm X
  tie : (∀ x ∈ X, ∀ y ∈ X, FloatOps.le (dist c1 x) (dist c2 y) = true) → B.length = S
  grown : c1 ≠ c2 → ∃ U A0 B0 V A1 B1 : List Nat, X.Perm (c1 :: c2 :: U) ∧ Cores (dist c1) (dist c2) (S - 1) U A0 B0 V ∧
    Rounds (dist c1) (dist c2) (if batch then S else 1) V A1 B1 ∧ A.Perm (c1 :: (A0 ++ A1)) ∧ B.Perm (c2 :: (B0 ++ B1))

/-- The arrays have the same lengths. -/
structure SameLens (b b' : HiBufs F) : Prop where
  store : b'.store.len = b.store.len
  idx1 : b'.idx1.len = b.idx1.len
  idx2 : b'.idx2.len = b.idx2.len
  dists : b'.dists.len = b.dists.len
  marks : b'.marks.len = b.marks.len
  edges1 : b'.edges1.len = b.edges1.len
  edges2 : b'.edges2.len = b.edges2.len

/-- The cluster `X` is stored from position `off` on, with marker `mk`, and there is room to break it. -/
structure BreakPre (cfg : Cfg) (n S : Nat) (X : List Nat) (off mk : Nat) (b : HiBufs F) : Prop where
  nodup : X.Nodup
  range : ∀ x ∈ X, x < n
  seg : Seg b.store off X
  fit : off + X.length ≤ b.store.len
  marks : MarksLe b.marks mk X
  marker : mk ≤ cfg.fast16Max
  size : 2 * S ≤ X.length
  idx1 : S ≤ b.idx1.len ∧ 100 ≤ b.idx1.len
  idx2 : S ≤ b.idx2.len ∧ 100 ≤ b.idx2.len
  dists : 2 * X.length ≤ b.dists.len ∧ 100 ≤ b.dists.len
  edges1 : X.length ≤ b.edges1.len
  edges2 : X.length ≤ b.edges2.len

/-- The cluster has been broken into `A` and `B`. -/
structure BreakPost (cfg : Cfg) (X : List Nat) (off : Nat) (b : HiBufs F) (A B : List Nat) (r : HiItem × HiItem × HiBufs F) : Prop where
  items : ∃ mk, mk ≤ cfg.fast16Max ∧ r.1 = ⟨A.length, mk, some off⟩ ∧ r.2.1 = ⟨B.length, mk, some (off + A.length)⟩ ∧ MarksLe r.2.2.marks mk (A ++ B)
  seg1 : Seg r.2.2.store off A
  seg2 : Seg r.2.2.store (off + A.length) B
  outside : ∀ i, i < off ∨ off + X.length ≤ i → r.2.2.store.get i = b.store.get i
  moutside : ∀ x, x ∉ X → r.2.2.marks.get x = b.marks.get x
  lens : SameLens b r.2.2

theorem splitCluster_spec {cfg : Cfg} (hcfg : 1 ≤ cfg.fast16Max) {n : Nat} {dist : Nat → Nat → F} (hd : DistLaws n dist) {hi : HiEnv F} (hhi : hi.Ok) {S : Nat} (hS : 2 ≤ S) (hS32 : 2 * S < 2 ^ 32)
    (batch : Bool) {X : List Nat} {off mk c1 c2 : Nat} {b : HiBufs F} (h : BreakPre cfg n S X off mk b) (hc1 : c1 ∈ X) (hc2 : c2 ∈ X)
    (hrow1 : ∀ (i x : Nat), X[i]? = some x → b.dists.get i = some (dist c1 x)) (hrow2 : ∀ (i x : Nat), X[i]? = some x → b.dists.get (X.length + i) = some (dist c2 x)) :
    Wp (splitCluster cfg hi S batch ⟨X.length, mk, some off⟩ c1 c2 b) fun r => ∃ A B, Halves S batch dist X c1 c2 A B ∧ BreakPost cfg X off b A B r := by
  have hX := h.nodup
  have hsize := h.size
  have hfit := h.fit
  have ho := others_length hX hc1 hc2
  unfold splitCluster
  rw [wp_bind, wp_eq rfl, wp_bind]
  dsimp only
  refine (sortEdges_spec hd hhi hX h.range hc1 h.seg (by simpa using hrow1) h.edges1).mono ?_
  rintro ⟨e1, next1⟩ ⟨g1, g2⟩
  rw [wp_bind]
  refine (sortEdges_spec hd hhi hX h.range hc2 h.seg (r := 1) (by simpa using hrow2) h.edges2).mono ?_
  rintro ⟨e2, next2⟩ ⟨k1, k2⟩
  dsimp only at g1 g2 k1 k2 ⊢
  rw [wp_bind]
  refine (nextMarker_spec hcfg h.seg h.marks h.marker).mono ?_
  rintro ⟨c, marks⟩ ⟨marker, rfl, m2, m3, m4, m5⟩
  dsimp only at m3 m4 m5 ⊢
  have hlt : ∀ x ∈ X, x < marks.len := fun x hx => by obtain ⟨m, hm, -⟩ := m5 x hx; exact Buf.lt_of_get hm
  -- the centers
  rw [wp_bind, moveTo1, wp_bind, Buf.wp_set]
  refine ⟨hlt _ hc1, ?_⟩
  dsimp only
  rw [wp_bind, wp_eq rfl, wp_bind, Buf.wp_set]
  refine ⟨by omega, ?_⟩
  rw [wp_pure, wp_bind, moveTo2, wp_bind]
  dsimp only
  rw [wp_eq rfl, if_neg (by omega), wp_bind, Buf.wp_set]
  refine ⟨by simpa using hlt _ hc2, ?_⟩
  rw [wp_bind, Buf.wp_set]
  refine ⟨by simp; omega, ?_⟩
  rw [wp_pure, wp_bind]
  have hparts : PartsInv b.store marks off marker X c1 c2 [] [] (others X c1 c2)
      ⟨(b.store.upd (off + 0) c1).upd (off + X.length - 1) c2, (marks.upd c1 marker).upd c2 marker, ⟨0 + 1, marker, some off⟩, ⟨0 + 1, marker, some (off + X.length - 1)⟩⟩ := by
    refine ⟨rfl, rfl, ?_, ?_, rfl, ?_, rfl, ?_, ?_, by simp⟩
    · intro i y hy
      cases i with
      | zero =>
        simp at hy; subst hy
        dsimp only
        rw [Buf.get_upd_ne _ _ (by omega), Buf.get_upd_self _ _ (by omega)]
      | succ i => simp at hy
    · intro i y hy
      cases i with
      | zero =>
        simp at hy; subst hy
        dsimp only
        simp only [List.length_nil, Nat.sub_zero, Nat.add_zero]
        rw [Buf.get_upd_self _ _ (by simp; omega)]
      | succ i => simp at hy
    · intro i hi
      dsimp only
      rw [Buf.get_upd_ne _ _ (by omega), Buf.get_upd_ne _ _ (by omega)]
    · intro x hx
      dsimp only
      rw [Buf.get_upd_ne _ _ (by rintro rfl; exact hx hc2), Buf.get_upd_ne _ _ (by rintro rfl; exact hx hc1)]
    · intro x hx
      dsimp only
      by_cases h2 : x = c2
      · refine ⟨marker, by rw [h2, Buf.get_upd_self _ _ (by simpa using hlt _ hc2)], ?_⟩
        simp [others, h2]
      · rw [Buf.get_upd_ne _ _ h2]
        by_cases h1 : x = c1
        · refine ⟨marker, by rw [h1, Buf.get_upd_self _ _ (hlt _ hc1)], ?_⟩
          simp [others, h1]
        · rw [Buf.get_upd_ne _ _ h1]
          obtain ⟨m, hm, hm'⟩ := m5 x hx
          refine ⟨m, hm, ?_⟩
          simp only [others, List.mem_filter, decide_eq_true_eq]
          exact ⟨fun _ => ⟨hx, h1, h2⟩, fun _ => by omega⟩
  have hon : (others X c1 c2).Nodup := hX.filter _
  have hsplit : SplitInv b.store marks off marker X c1 c2 e1 e2 (dist c1) (dist c2) b.idx1.len b.idx2.len [] [] (others X c1 c2)
      ⟨⟨(b.store.upd (off + 0) c1).upd (off + X.length - 1) c2, (marks.upd c1 marker).upd c2 marker, ⟨0 + 1, marker, some off⟩, ⟨0 + 1, marker, some (off + X.length - 1)⟩⟩, 0, 0, next1, next2, b.idx1, b.idx2⟩ := by
    refine ⟨hparts, g2.mono (hX.filter _) hon ?_, k2.mono (hX.filter _) hon ?_, rfl, rfl⟩
    · intro x hx
      simp only [others, List.mem_filter, decide_eq_true_eq] at hx ⊢
      exact ⟨hx.1, hx.2.1⟩
    · intro x hx
      simp only [others, List.mem_filter, decide_eq_true_eq] at hx ⊢
      exact ⟨hx.1, hx.2.2⟩
  refine (splitFirst_spec hsplit hX hfit hS hsize ho h.idx1.1 h.idx2.1).mono ?_
  rintro s ⟨A, B, U, q1, q2, q3, B0, hB0, hcores⟩
  have hu : u32 (2 * S) = 2 * S := Nat.mod_eq_of_lt hS32
  rw [hu, wp_bind]
  refine (splitRest_spec hX hfit ho batch q1 (by omega) (by omega) h.idx1.1 h.idx2.1).mono ?_
  rintro s' ⟨A', B', V, r1, r2, hrounds⟩
  rw [wp_pure]
  have hp := r1.parts
  have htot := r2.total
  have hfst := r2.first
  have hsnd := r2.second
  have hnd : (A' ++ B' ++ V).Nodup := hp.perm.nodup_iff.1 hon
  rw [List.nodup_append, List.nodup_append] at hnd
  have hmemA : ∀ x ∈ A', x ∈ others X c1 c2 := fun x hx => hp.perm.mem_iff.2 (by simp [hx])
  have hmemB : ∀ x ∈ B', x ∈ others X c1 c2 := fun x hx => hp.perm.mem_iff.2 (by simp [hx])
  have hnotc : ∀ x ∈ others X c1 c2, x ∈ X ∧ x ≠ c1 ∧ x ≠ c2 := fun x hx => by simpa [others] using hx
  refine ⟨c1 :: A', B' ++ [c2], ⟨?_, ?_, ?_, ?_, ?_, ?_, ?_, ?_, ?_, ?_⟩, ⟨⟨marker, m2, ?_, ?_, ?_⟩, hp.seg1, ?_, hp.outside, ?_, ?_⟩⟩
  · rw [List.nodup_cons]
    exact ⟨fun hx => (hnotc _ (hmemA _ hx)).2.1 rfl, hnd.1.1⟩
  · rw [List.nodup_append]
    refine ⟨hnd.1.2.1, by simp, ?_⟩
    intro x hx y hy
    rw [List.mem_singleton] at hy
    subst hy
    exact (hnotc _ (hmemB _ hx)).2.2
  · intro x hx
    rw [List.mem_cons] at hx
    rcases hx with rfl | hx
    · exact hc1
    · exact (hnotc _ (hmemA _ hx)).1
  · intro x hx
    rw [List.mem_append, List.mem_singleton] at hx
    rcases hx with hx | rfl
    · exact (hnotc _ (hmemB _ hx)).1
    · exact hc2
  · simp; omega
  · simp; omega
  · simp; omega
  · intro hne
    have hop := others_perm hX hc1 hc2 hne
    have hV : V = [] := by
      have e1 := hop.length_eq
      have e2 := hp.perm.length_eq
      simp at e1 e2
      exact List.length_eq_zero_iff.1 (by omega)
    subst hV
    refine List.Perm.trans ?_ hop.symm
    have e3 := hp.perm
    rw [List.append_nil] at e3
    rw [List.cons_append]
    refine List.Perm.cons _ ?_
    rw [← List.append_assoc]
    refine List.Perm.trans (List.perm_append_comm) ?_
    rw [List.singleton_append]
    exact List.Perm.cons _ e3.symm
  · intro htie
    have := r2.tie fun x hx y hy => htie x (hnotc x hx).1 y (hnotc y hy).1
    simp; omega
  · intro hne
    have hop := others_perm hX hc1 hc2 hne
    have hUl := q1.left
    have e1 := hop.length_eq
    simp at e1
    obtain ⟨-, As, Bs, t1, t2, t3⟩ := hrounds (by omega)
    refine ⟨others X c1 c2, A, B0, U, As, Bs, hop, hcores, t1, (t2.symm).cons _, ?_⟩
    refine List.perm_append_comm.trans ?_
    rw [List.singleton_append]
    exact (t3.symm.trans (hB0.append_right _)).cons _
  · rw [hp.item1]; simp
  · rw [hp.item2]
    simp only [List.length_append, List.length_cons, List.length_nil, HiItem.mk.injEq, true_and, Option.some.injEq]
    omega
  · intro x hx
    dsimp only
    have hxX : x ∈ X ∧ x ∉ V := by
      simp only [List.mem_append, List.mem_cons, List.not_mem_nil, or_false] at hx
      rcases hx with (rfl | hx) | (hx | rfl)
      · exact ⟨hc1, fun hv => (hnotc _ (hp.sub hv)).2.1 rfl⟩
      · exact ⟨(hnotc _ (hmemA _ hx)).1, fun hv => hnd.2.2 x (by simp [hx]) x hv rfl⟩
      · exact ⟨(hnotc _ (hmemB _ hx)).1, fun hv => hnd.2.2 x (by simp [hx]) x hv rfl⟩
      · exact ⟨hc2, fun hv => (hnotc _ (hp.sub hv)).2.2 rfl⟩
    obtain ⟨m, hm, hm'⟩ := hp.marked x hxX.1
    refine ⟨m, hm, ?_⟩
    by_contra hcon
    exact hxX.2 (hm'.1 (by omega))
  · have := hp.seg2
    simpa [show off + X.length - 1 - B'.length = off + (A'.length + 1) by omega] using this
  · intro x hx
    dsimp only
    rw [hp.moutside x hx]; exact m4 x hx
  · exact ⟨hp.len, r1.knn1, r1.knn2, rfl, hp.mlen.trans m3, g1, k1⟩

end Scc
