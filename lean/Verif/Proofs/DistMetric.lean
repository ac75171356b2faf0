/-
Metric facts about the answers of the built-in search; max distance search and distance matrices.
-/
import Verif.Proofs.DistSearch
import Verif.Spec.Float

namespace Scc

variable {F : Type} [FloatOps F]

theorem collect_length (k : Nat) (rsq : Option F) (acc xs : List (F × Nat)) (h : acc.length ≤ k) :
    (collect k rsq acc xs).length = min k (acc.length + xs.countP fun x => !rsq.any fun r => FloatOps.lt r x.1) := by
  induction xs generalizing acc with
  | nil => simp [collect, h]
  | cons x xs ih =>
    rw [collect]
    split
    · rw [length_foldl_keepNear]; omega
    · split
      · rename_i hx
        rw [ih _ h, List.countP_cons_of_neg (by simp [hx])]
      · rename_i hx
        rw [ih _ (by rw [length_insertFar]; omega), length_insertFar, List.countP_cons_of_pos (by simpa using hx)]
        omega

/-- There is an answer exactly when there are enough points within the radius. -/
theorem nnAnswer_isSome {d : Nat → F} {L : List Nat} {k : Nat} {radius : Option F} :
    nnAnswer d L k radius ≠ none ↔ k ≤ L.countP fun j => !radius.any fun r => FloatOps.lt (FloatOps.mul r r) (d j) := by
  unfold nnAnswer
  dsimp only
  have := collect_length k (radius.map fun r => FloatOps.mul r r) [] (L.map fun j => (d j, j)) (by simp)
  rw [List.countP_map] at this
  have e : ((fun x : F × Nat => !(radius.map fun r => FloatOps.mul r r).any fun r => FloatOps.lt r x.1) ∘ fun j => (d j, j)) =
      fun j => !radius.any fun r => FloatOps.lt (FloatOps.mul r r) (d j) := by
    funext j; cases radius <;> rfl
  rw [e] at this
  simp only [List.length_nil, Nat.zero_add] at this
  split
  · simp only [ne_eq, reduceCtorEq, not_false_eq_true, true_iff]; omega
  · simp only [ne_eq, not_true_eq_false, false_iff]; omega

/-! ### Order of the answers -/

section
variable (laws : FloatLaws F) (pos : Nat → Nat)

/-- Order of candidates by distance, then position. -/
def Bef (y x : F × Nat) : Prop := FloatOps.le y.1 x.1 = true ∧ (FloatOps.le x.1 y.1 = true → pos y.2 < pos x.2)

include laws

theorem Bef.trans {x y z : F × Nat} (h1 : Bef pos x y) (h2 : Bef pos y z) : Bef pos x z :=
  ⟨laws.trans _ _ _ h1.1 h2.1, fun h => (h1.2 (laws.trans _ _ _ h2.1 h)).trans (h2.2 (laws.trans _ _ _ h h1.1))⟩

theorem bef_of_not_lt {x y : F × Nat} (hx : IsNum x.1) (hy : IsNum y.1) (he : pos y.2 < pos x.2) (h : ¬ FloatOps.lt x.1 y.1 = true) : Bef pos y x := by
  rw [laws.lt_iff _ _ hx hy] at h
  exact ⟨by simpa using h, fun _ => he⟩

theorem bef_of_lt {x y : F × Nat} (hx : IsNum x.1) (hy : IsNum y.1) (h : FloatOps.lt x.1 y.1 = true) : Bef pos x y := by
  rw [laws.lt_iff _ _ hx hy] at h
  refine ⟨?_, fun h' => by rw [h] at h'; cases h'⟩
  rcases laws.total _ _ hx hy with h' | h'
  · exact h'
  · rw [h] at h'; cases h'

theorem lt_of_not_le {x y : F × Nat} (hx : IsNum x.1) (hy : IsNum y.1) (h : ¬ FloatOps.le y.1 x.1 = true) : FloatOps.lt x.1 y.1 = true := by
  rw [laws.lt_iff _ _ hx hy]; simpa using h

theorem insertFar_sorted {x : F × Nat} {acc : List (F × Nat)} (hx : IsNum x.1) (hacc : ∀ y ∈ acc, IsNum y.1 ∧ pos y.2 < pos x.2)
    (h : acc.Pairwise fun a b => Bef pos b a) : (insertFar x acc).Pairwise fun a b => Bef pos b a := by
  induction acc with
  | nil => simp [insertFar]
  | cons y ys ih =>
    rw [List.pairwise_cons] at h
    have hy := hacc y (by simp)
    unfold insertFar
    split
    · rename_i hlt
      rw [List.pairwise_cons]
      refine ⟨fun z hz => ?_, ih (fun z hz => hacc z (by simp [hz])) h.2⟩
      rw [(perm_insertFar x ys).mem_iff, List.mem_cons] at hz
      rcases hz with rfl | hz
      · exact bef_of_lt laws pos hx hy.1 hlt
      · exact h.1 z hz
    · rename_i hlt
      have hyx := bef_of_not_lt laws pos hx hy.1 hy.2 hlt
      rw [List.pairwise_cons]
      refine ⟨fun z hz => ?_, List.pairwise_cons.2 h⟩
      rcases List.mem_cons.1 hz with rfl | hz
      · exact hyx
      · exact (h.1 z hz).trans laws pos hyx

/-- State of the collection after the candidates `pre`. -/
structure ColInv (k : Nat) (rsq : Option F) (pre acc : List (F × Nat)) : Prop where
  sub : ∀ y ∈ acc, y ∈ pre
  sorted : acc.Pairwise fun a b => Bef pos b a
  inside : ∀ y ∈ acc, ¬ rsq.any (fun r => FloatOps.lt r y.1) = true
  rest : ∀ x ∈ pre, x ∉ acc → rsq.any (fun r => FloatOps.lt r x.1) = true ∨ acc.length = k ∧ ∀ y ∈ acc, Bef pos y x

omit laws in
theorem inside_mono {rsq : Option F} {x y : F × Nat} (laws : FloatLaws F) (hr : ∀ r, rsq = some r → IsNum r) (hx : IsNum x.1) (hy : IsNum y.1)
    (h : FloatOps.le x.1 y.1 = true) (hin : ¬ rsq.any (fun r => FloatOps.lt r y.1) = true) : ¬ rsq.any (fun r => FloatOps.lt r x.1) = true := by
  cases rsq with
  | none => simp
  | some r =>
    simp only [Option.any_some] at hin ⊢
    have hr' := hr r rfl
    rw [laws.lt_iff _ _ hr' hy] at hin
    rw [laws.lt_iff _ _ hr' hx]
    simp only [Bool.not_eq_false] at hin ⊢
    exact laws.trans _ _ _ h hin

theorem keepNear_inv {k : Nat} (hk : 0 < k) {rsq : Option F} (hr : ∀ r, rsq = some r → IsNum r) {pre acc : List (F × Nat)} {x : F × Nat}
    (hpre : ∀ y ∈ pre, IsNum y.1 ∧ pos y.2 < pos x.2) (hx : IsNum x.1) (hlen : acc.length = k) (h : ColInv pos k rsq pre acc) :
    ColInv pos k rsq (pre ++ [x]) (keepNear acc x) := by
  cases acc with
  | nil => simp at hlen; omega
  | cons y ys =>
    have hy := hpre y (h.sub y (by simp))
    have hs := List.pairwise_cons.1 h.sorted
    unfold keepNear
    dsimp only
    split
    · rename_i hle
      have hyx : Bef pos y x := ⟨hle, fun _ => hy.2⟩
      refine ⟨fun z hz => by simp [h.sub z hz], h.sorted, h.inside, fun z hz hn => ?_⟩
      rw [List.mem_append, List.mem_singleton] at hz
      rcases hz with hz | rfl
      · exact h.rest z hz hn
      · refine Or.inr ⟨hlen, fun u hu => ?_⟩
        rcases List.mem_cons.1 hu with rfl | hu
        · exact hyx
        · exact (hs.1 u hu).trans laws pos hyx
    · rename_i hle
      have hlt := lt_of_not_le laws hx hy.1 hle
      have hxy := bef_of_lt laws pos hx hy.1 hlt
      have hmem : ∀ z, z ∈ insertFar x ys ↔ z = x ∨ z ∈ ys := fun z => by rw [(perm_insertFar x ys).mem_iff, List.mem_cons]
      refine ⟨fun z hz => ?_, ?_, fun z hz => ?_, fun z hz hn => ?_⟩
      · rcases (hmem z).1 hz with rfl | hz
        · simp
        · simp [h.sub z (by simp [hz])]
      · exact insertFar_sorted laws pos hx (fun z hz => hpre z (h.sub z (by simp [hz]))) hs.2
      · rcases (hmem z).1 hz with rfl | hz
        · exact inside_mono laws hr hx hy.1 hxy.1 (h.inside y (by simp))
        · exact h.inside z (by simp [hz])
      · rw [hmem, not_or] at hn
        rw [List.mem_append, List.mem_singleton] at hz
        rcases hz with hz | rfl
        swap
        · exact absurd rfl hn.1
        by_cases hzy : z = y
        · subst hzy
          refine Or.inr ⟨by rw [length_insertFar]; simpa using hlen, fun u hu => ?_⟩
          rcases (hmem u).1 hu with rfl | hu
          · exact hxy
          · exact hs.1 u hu
        · rcases h.rest z hz (by simp [hzy, hn.2]) with ho | ⟨-, ho⟩
          · exact Or.inl ho
          · refine Or.inr ⟨by rw [length_insertFar]; simpa using hlen, fun u hu => ?_⟩
            rcases (hmem u).1 hu with rfl | hu
            · exact hxy.trans laws pos (ho y (by simp))
            · exact ho u (by simp [hu])

theorem collect_inv {k : Nat} (hk : 0 < k) {rsq : Option F} (hr : ∀ r, rsq = some r → IsNum r) (xs : List (F × Nat)) :
    ∀ (pre acc : List (F × Nat)), (∀ y ∈ pre ++ xs, IsNum y.1) → (pre ++ xs).Pairwise (fun a b => pos a.2 < pos b.2) → acc.length ≤ k →
      ColInv pos k rsq pre acc → ColInv pos k rsq (pre ++ xs) (collect k rsq acc xs) := by
  induction xs with
  | nil => intro pre acc h1 h2 h3 h4; simpa [collect] using h4
  | cons x xs ih =>
    intro pre acc h1 h2 h3 h4
    have hx : IsNum x.1 := h1 x (by simp)
    have hpx : ∀ y ∈ pre, IsNum y.1 ∧ pos y.2 < pos x.2 := fun y hy =>
      ⟨h1 y (by simp [hy]), (List.pairwise_append.1 h2).2.2 y hy x (by simp)⟩
    have happ : pre ++ x :: xs = (pre ++ [x]) ++ xs := by simp
    rw [collect]
    split
    · rename_i hk'
      have h5 := keepNear_inv laws pos hk hr hpx hx hk' h4
      rw [List.foldl_cons, happ]
      rw [← collect_self k rsq (keepNear acc x) xs (by rw [length_keepNear, hk'])]
      exact ih _ _ (by rwa [← happ]) (by rwa [← happ]) (by rw [length_keepNear]; omega) h5
    · rename_i hk'
      split
      · rename_i ho
        rw [happ]
        refine ih _ _ (by rwa [← happ]) (by rwa [← happ]) h3 ⟨fun y hy => by simp [h4.sub y hy], h4.sorted, h4.inside, fun z hz hn => ?_⟩
        rw [List.mem_append, List.mem_singleton] at hz
        rcases hz with hz | rfl
        · exact h4.rest z hz hn
        · exact Or.inl ho
      · rename_i ho
        have hmem : ∀ z, z ∈ insertFar x acc ↔ z = x ∨ z ∈ acc := fun z => by rw [(perm_insertFar x acc).mem_iff, List.mem_cons]
        rw [happ]
        refine ih _ _ (by rwa [← happ]) (by rwa [← happ]) (by rw [length_insertFar]; omega) ⟨fun y hy => ?_, ?_, fun y hy => ?_, fun z hz hn => ?_⟩
        · rcases (hmem y).1 hy with rfl | hy
          · simp
          · simp [h4.sub y hy]
        · exact insertFar_sorted laws pos hx (fun y hy => hpx y (h4.sub y hy)) h4.sorted
        · rcases (hmem y).1 hy with rfl | hy
          · exact ho
          · exact h4.inside y hy
        · rw [hmem, not_or] at hn
          rw [List.mem_append, List.mem_singleton] at hz
          rcases hz with hz | rfl
          · rcases h4.rest z hz hn.2 with h5 | h5
            · exact Or.inl h5
            · exact absurd h5.1 hk'
          · exact absurd rfl hn.1

end

/-- The answers are the nearest points, in order, and within the radius. -/
theorem nnAnswer_nearest (laws : FloatLaws F) {d : Nat → F} {L : List Nat} {k : Nat} {radius : Option F} (hk : 0 < k) (hL : L.Nodup)
    (hd : ∀ j ∈ L, IsNum (d j)) (hr : ∀ r, radius = some r → IsNum (FloatOps.mul r r)) {l : List Nat} (h : nnAnswer d L k radius = some l) :
    l.Pairwise (Nearer d L) ∧ (∀ x ∈ L, x ∉ l → ∀ y ∈ l, Nearer d L y x) ∧
      ∀ r, radius = some r → ∀ y ∈ l, FloatOps.le (d y) (FloatOps.mul r r) = true := by
  unfold nnAnswer at h
  dsimp only at h
  split at h
  swap
  · cases h
  cases h
  set rsq := radius.map fun r => FloatOps.mul r r with hrsq
  have hrs : ∀ r, rsq = some r → IsNum r := by
    intro r hx
    cases radius with
    | none => simp [hrsq] at hx
    | some r' => simp only [hrsq, Option.map_some, Option.some.injEq] at hx; subst hx; exact hr r' rfl
  have hnum : ∀ y ∈ L.map fun j => (d j, j), IsNum y.1 := by
    intro y hy
    rw [List.mem_map] at hy
    obtain ⟨j, hj, rfl⟩ := hy
    exact hd j hj
  have hpos : (L.map fun j => (d j, j)).Pairwise fun a b => L.idxOf a.2 < L.idxOf b.2 := by
    rw [List.pairwise_map]
    rw [List.pairwise_iff_getElem]
    intro i j hi hj hij
    rw [List.Nodup.idxOf_getElem hL, List.Nodup.idxOf_getElem hL]; exact hij
  have hinv := collect_inv laws (fun j => L.idxOf j) hk hrs (L.map fun j => (d j, j)) [] [] (by simpa using hnum) (by simpa using hpos) (by simp)
    ⟨by simp, by simp, by simp, by simp⟩
  rw [List.nil_append] at hinv
  set acc := collect k rsq [] (L.map fun j => (d j, j)) with hacc
  have hform : ∀ y ∈ acc, y = (d y.2, y.2) ∧ y.2 ∈ L := by
    intro y hy
    have := hinv.sub y hy
    rw [List.mem_map] at this
    obtain ⟨j, hj, rfl⟩ := this
    exact ⟨rfl, hj⟩
  have hin : ∀ y ∈ acc, ∀ r, radius = some r → FloatOps.le (d y.2) (FloatOps.mul r r) = true := by
    intro y hy r hrr
    have h1 := hinv.inside y hy
    rw [hrsq, hrr] at h1
    simp only [Option.map_some, Option.any_some] at h1
    have h2 := hform y hy
    rw [h2.1] at h1
    dsimp only at h1
    rw [laws.lt_iff _ _ (hr r hrr) (hd _ h2.2)] at h1
    simpa using h1
  refine ⟨?_, ?_, ?_⟩
  · rw [List.map_reverse, List.pairwise_reverse, List.pairwise_map]
    refine hinv.sorted.imp_of_mem ?_
    intro a b ha hb hab
    have h1 := hform a ha
    have h2 := hform b hb
    rw [h1.1, h2.1] at hab
    exact hab
  · intro x hx hn y hy
    rw [List.mem_map] at hy
    obtain ⟨p, hp, rfl⟩ := hy
    rw [List.mem_reverse] at hp
    have hnx : (d x, x) ∉ acc := by
      intro hc
      apply hn
      rw [List.mem_map]
      exact ⟨(d x, x), by simpa using hc, rfl⟩
    have h2 := hform p hp
    rcases hinv.rest (d x, x) (List.mem_map.2 ⟨x, hx, rfl⟩) hnx with ho | ⟨-, ho⟩
    · cases hrad : radius with
      | none => rw [hrsq, hrad] at ho; simp at ho
      | some r =>
        have h3 := hin p hp r hrad
        rw [hrsq, hrad] at ho
        simp only [Option.map_some, Option.any_some] at ho
        have hrn := hr r hrad
        rw [laws.lt_iff _ _ hrn (hd x hx)] at ho
        have h4 : FloatOps.le (FloatOps.mul r r) (d x) = true := by
          rcases laws.total _ _ hrn (hd x hx) with h4 | h4
          · exact h4
          · rw [ho] at h4; cases h4
        refine ⟨laws.trans _ _ _ h3 h4, fun h5 => ?_⟩
        have := laws.trans _ _ _ h5 h3
        rw [ho] at this; cases this
    · have := ho p hp
      rw [h2.1] at this
      exact this
  · intro r hrr y hy
    rw [List.mem_map] at hy
    obtain ⟨p, hp, rfl⟩ := hy
    exact hin p (by simpa using hp) r hrr

/-! ### Max distance -/

theorem maxDistK_spec (laws : FloatLaws F) {ds : DataSet F} {search queries : Option Arr} {L Q : List Nat} (hc : ds.Complete) (hs : ArrHolds search L)
    (hq : ArrHolds queries Q) (hL : ∀ x ∈ L, x < ds.n) (hQ : ∀ x ∈ Q, x < ds.n) (hne : L ≠ []) (hnd : L.Nodup)
    (hnum : ∀ q ∈ Q, ∀ x ∈ L, IsNum (ds.sqd q x) ∧ FloatOps.lt (FloatOps.negOne : F) (ds.sqd q x) = true)
    {outI : Buf Nat} {outD : Buf F} (hI : Q.length ≤ outI.len) (hD : Q.length ≤ outD.len) :
    Wp (maxDistK ds L.length search Q.length queries outI outD) fun r => r.1.len = outI.len ∧ r.2.len = outD.len ∧
      (∀ (i q : Nat), Q[i]? = some q → ∃ x, Farthest (ds.sqd q) L x ∧ r.1.get i = some x ∧ r.2.get i = some (ds.dist q x)) ∧
      ∀ i, Q.length ≤ i → r.1.get i = outI.get i ∧ r.2.get i = outD.get i := by
  unfold maxDistK
  refine wp_forLt (fun i r => r.1.len = outI.len ∧ r.2.len = outD.len ∧
      (∀ (i' q : Nat), i' < i → Q[i']? = some q → ∃ x, Farthest (ds.sqd q) L x ∧ r.1.get i' = some x ∧ r.2.get i' = some (ds.dist q x)) ∧
      ∀ i', i ≤ i' → r.1.get i' = outI.get i' ∧ r.2.get i' = outD.get i') (Nat.zero_le _) ?_ ?_ ?_
  · exact ⟨rfl, rfl, fun i' q h => by omega, fun i' _ => ⟨rfl, rfl⟩⟩
  · rintro i ⟨bI, bD⟩ - hi ⟨h1, h2, h3, h4⟩
    dsimp only at h1 h2 h3 h4 ⊢
    set q := Q[i] with hqi
    have hqm : q ∈ Q := List.getElem_mem hi
    have hiI : i < bI.len := by omega
    rw [wp_bind]
    refine wp_forLt (fun s st => st.1.len = outI.len ∧ (∀ i', i' ≠ i → st.1.get i' = bI.get i') ∧
      (s = 0 ∧ st.2 = (FloatOps.negOne : F) ∨ 0 < s ∧ ∃ x, Farthest (ds.sqd q) (L.take s) x ∧ st.1.get i = some x ∧ st.2 = ds.sqd q x)) (Nat.zero_le _) ?_ ?_ ?_
    · exact ⟨h1, fun _ _ => rfl, Or.inl ⟨rfl, rfl⟩⟩
    · rintro s ⟨b, m⟩ - hsL ⟨g1, g2, g3⟩
      dsimp only at g1 g2 g3 ⊢
      have hsm : L[s] ∈ L := List.getElem_mem hsL
      rw [wp_bind, wp_eq (hq.get (List.getElem?_eq_getElem hi)), wp_bind, wp_eq (hs.get (List.getElem?_eq_getElem hsL)), wp_bind,
        wp_eq (sqDist_eq hc (hQ _ hqm) (hL _ hsm))]
      have hnx := hnum q hqm L[s] hsm
      have htake : L.take (s + 1) = L.take s ++ [L[s]] := List.take_succ_eq_append_getElem hsL
      have hndt : (L.take s ++ [L[s]]).Nodup := by rw [← htake]; exact hnd.sublist (List.take_sublist _ _)
      have hnot : L[s] ∉ L.take s := by
        intro hcm
        have := List.nodup_append.1 hndt
        exact this.2.2 _ hcm _ (by simp) rfl
      have hidx : (L.take s ++ [L[s]]).idxOf L[s] = s := by
        rw [List.idxOf_append_of_notMem hnot]; simp; omega
      split
      · rename_i hlt
        rw [wp_bind, Buf.wp_set]
        refine ⟨by omega, ?_⟩
        rw [wp_pure]
        refine ⟨g1, fun i' hi' => by dsimp only; rw [Buf.get_upd_ne _ _ hi']; exact g2 i' hi', Or.inr ⟨by omega, L[s], ?_, Buf.get_upd_self _ _ (by omega), rfl⟩⟩
        rw [htake]
        refine ⟨List.mem_append.2 (Or.inr (by simp)), fun y hy => ?_⟩
        rw [List.mem_append, List.mem_singleton] at hy
        rcases hy with hy | rfl
        swap
        · exact ⟨hnx.1, fun _ => le_rfl⟩
        rcases g3 with ⟨rfl, -⟩ | ⟨-, x, hx, -, rfl⟩
        · simp at hy
        have hym : y ∈ L := List.mem_of_mem_take hy
        have hxm : x ∈ L := List.mem_of_mem_take hx.1
        have hy2 := hx.2 y hy
        rw [laws.lt_iff _ _ (hnum q hqm x hxm).1 hnx.1] at hlt
        have hle : FloatOps.le (ds.sqd q x) (ds.sqd q L[s]) = true := by
          rcases laws.total _ _ (hnum q hqm x hxm).1 hnx.1 with h' | h'
          · exact h'
          · rw [hlt] at h'; cases h'
        refine ⟨laws.trans _ _ _ hy2.1 hle, fun h' => ?_⟩
        have := laws.trans _ _ _ h' hy2.1
        rw [hlt] at this; cases this
      · rename_i hlt
        rw [wp_pure]
        rcases g3 with ⟨rfl, rfl⟩ | ⟨-, x, hx, hgx, rfl⟩
        · exact absurd hnx.2 hlt
        refine ⟨g1, g2, Or.inr ⟨by omega, x, ?_, hgx, rfl⟩⟩
        have hxm : x ∈ L := List.mem_of_mem_take hx.1
        rw [htake]
        refine ⟨List.mem_append.2 (Or.inl hx.1), fun y hy => ?_⟩
        rw [List.mem_append, List.mem_singleton] at hy
        rcases hy with hy | rfl
        · rw [List.idxOf_append_of_mem hx.1, List.idxOf_append_of_mem hy]
          exact hx.2 y hy
        · rw [laws.lt_iff _ _ (hnum q hqm x hxm).1 hnx.1] at hlt
          refine ⟨by simpa using hlt, fun _ => ?_⟩
          rw [List.idxOf_append_of_mem hx.1, hidx]
          have := List.idxOf_lt_length_of_mem hx.1
          simp at this; omega
    · rintro ⟨b, m⟩ ⟨g1, g2, g3⟩
      dsimp only at g1 g2 g3 ⊢
      rw [wp_bind, Buf.wp_set, wp_pure]
      have hlen : 0 < L.length := List.length_pos_of_ne_nil hne
      rcases g3 with ⟨h0, -⟩ | ⟨-, x, hx, hgx, rfl⟩
      · omega
      rw [List.take_length] at hx
      refine ⟨by omega, g1, h2, fun i' q' hi' hq' => ?_, fun i' hi' => ?_⟩
      · by_cases hii : i' = i
        · subst hii
          rw [List.getElem?_eq_getElem hi] at hq'
          cases hq'
          exact ⟨x, hx, hgx, Buf.get_upd_self _ _ (by omega)⟩
        · obtain ⟨x', a, b', c⟩ := h3 i' q' (by omega) hq'
          dsimp only
          exact ⟨x', a, by rw [g2 i' hii]; exact b', by rw [Buf.get_upd_ne _ _ hii]; exact c⟩
      · dsimp only
        rw [g2 i' (by omega), Buf.get_upd_ne _ _ (by omega)]
        exact h4 i' (by omega)
  · rintro ⟨bI, bD⟩ ⟨h1, h2, h3, h4⟩
    refine ⟨h1, h2, fun i q hq' => h3 i q ?_ hq', h4⟩
    by_contra hcc; rw [List.getElem?_eq_none (by omega)] at hq'; cases hq'

/-! ### Distance matrix -/

theorem length_upperPairs (l : List Nat) : (upperPairs l).length = l.length * (l.length - 1) / 2 := by
  induction l with
  | nil => rfl
  | cons x xs ih =>
    rw [upperPairs, List.length_append, List.length_map, ih, List.length_cons, Nat.add_sub_cancel]
    have : (xs.length + 1) * xs.length = xs.length * (xs.length - 1) + xs.length * 2 := by
      cases xs.length with
      | zero => rfl
      | succ m => simp only [Nat.add_sub_cancel]; ring
    rw [this, Nat.add_mul_div_right _ _ (by omega)]; omega

/-- Pairs from rows before row `i`. -/
def pairsTo (L : List Nat) (i : Nat) : List (Nat × Nat) :=
  (List.range i).flatMap fun a => (L.drop (a + 1)).map fun y => (L.getD a 0, y)

theorem upperPairs_eq (L : List Nat) : upperPairs L = pairsTo L L.length := by
  induction L with
  | nil => rfl
  | cons x xs ih =>
    rw [upperPairs, ih, pairsTo, pairsTo, List.length_cons, List.range_succ_eq_map, List.flatMap_cons, List.flatMap_map]
    simp [List.flatMap]

theorem distMatrixK_spec {ds : DataSet F} {points : Option Arr} {L : List Nat} (hc : ds.Complete) (hp : ArrHolds points L)
    (hL : ∀ q ∈ L, q < ds.n) {out : Buf F} (hl : (upperPairs L).length ≤ out.len) :
    Wp (distMatrixK ds L.length points out) fun out' => out'.len = out.len ∧
      (∀ (i : Nat) (p : Nat × Nat), (upperPairs L)[i]? = some p → out'.get i = some (ds.dist p.1 p.2)) ∧
      ∀ i, (upperPairs L).length ≤ i → out'.get i = out.get i := by
  unfold distMatrixK
  rw [wp_bind]
  rw [upperPairs_eq] at hl ⊢
  have hpre : ∀ i, i ≤ L.length → ∀ j, j < i → (pairsTo L j).length + (L.length - (j + 1)) ≤ (pairsTo L i).length := by
    intro i hi j hj
    have hs : (pairsTo L (j + 1)).length ≤ (pairsTo L i).length := by
      obtain ⟨m, rfl⟩ : ∃ m, i = (j + 1) + m := ⟨i - (j + 1), by omega⟩
      clear hj hi
      induction m with
      | zero => exact le_rfl
      | succ m ih =>
        refine ih.trans ?_
        rw [← Nat.add_assoc, pairsTo, pairsTo, List.range_succ, List.flatMap_append, List.length_append]; omega
    rw [pairsTo, List.range_succ, List.flatMap_append, List.length_append] at hs
    simp only [List.flatMap_cons, List.flatMap_nil, List.append_nil, List.length_map, List.length_drop] at hs
    exact hs
  refine wp_forLt (fun i st => st.2 = (pairsTo L i).length ∧ st.1.len = out.len ∧
      (∀ (m : Nat) (p : Nat × Nat), (pairsTo L i)[m]? = some p → st.1.get m = some (ds.dist p.1 p.2)) ∧
      ∀ m, (pairsTo L i).length ≤ m → st.1.get m = out.get m) (Nat.zero_le _) ?_ ?_ ?_
  · exact ⟨by simp [pairsTo], rfl, fun m p h => by simp [pairsTo] at h, fun _ _ => rfl⟩
  · rintro i ⟨b, w⟩ - hi ⟨hw, h1, h2, h3⟩
    dsimp only at hw h1 h2 h3 ⊢
    have hgd : L.getD i 0 = L[i] := by simp [List.getD, hi]
    have hsucc : pairsTo L (i + 1) = pairsTo L i ++ (L.drop (i + 1)).map fun y => (L[i], y) := by
      rw [pairsTo, List.range_succ, List.flatMap_append]; simp [pairsTo, hi]
    have hroom := hpre L.length le_rfl i hi
    refine wp_forLt (fun j st => st.2 = (pairsTo L i).length + (j - (i + 1)) ∧ st.1.len = out.len ∧
        (∀ (m : Nat) (p : Nat × Nat), (pairsTo L i ++ ((L.drop (i + 1)).take (j - (i + 1))).map fun y => (L[i], y))[m]? = some p →
          st.1.get m = some (ds.dist p.1 p.2)) ∧
        ∀ m, (pairsTo L i).length + (j - (i + 1)) ≤ m → st.1.get m = out.get m) (by omega) ?_ ?_ ?_
    · refine ⟨by simpa using hw, h1, fun m p hp' => h2 m p (by simpa using hp'), fun m hm => h3 m (by omega)⟩
    · rintro j ⟨b, w⟩ hij hj ⟨hw, h1, h2, h3⟩
      dsimp only at hw h1 h2 h3 ⊢
      rw [wp_bind, wp_eq (hp.get (List.getElem?_eq_getElem hi)), wp_bind, wp_eq (hp.get (List.getElem?_eq_getElem hj)), wp_bind,
        wp_eq (sqDist_eq hc (hL _ (List.getElem_mem hi)) (hL _ (List.getElem_mem hj))), wp_bind, Buf.wp_set, wp_pure]
      have hlt : w < b.len := by rw [hw, h1]; omega
      have hstep : (L.drop (i + 1)).take (j + 1 - (i + 1)) = (L.drop (i + 1)).take (j - (i + 1)) ++ [L[j]] := by
        rw [show j + 1 - (i + 1) = (j - (i + 1)) + 1 by omega, List.take_succ_eq_append_getElem (by simp; omega)]
        simp only [List.getElem_drop]
        congr 3
        omega
      have hlen : (pairsTo L i ++ ((L.drop (i + 1)).take (j - (i + 1))).map fun y => (L[i], y)).length = w := by
        simp; omega
      refine ⟨hlt, by dsimp only; omega, h1, fun m p hp' => ?_, fun m hm => ?_⟩
      · dsimp only
        rw [hstep, List.map_append, ← List.append_assoc] at hp'
        by_cases hm : m < w
        · rw [List.getElem?_append_left (by omega)] at hp'
          rw [Buf.get_upd_ne _ _ (by omega)]
          exact h2 m p hp'
        · rw [List.getElem?_append_right (by omega), hlen] at hp'
          have h0 : m - w = 0 := by
            by_contra hcc; rw [List.getElem?_eq_none (by simp; omega)] at hp'; cases hp'
          rw [h0] at hp'
          simp only [List.map_cons, List.map_nil, List.getElem?_cons_zero, Option.some.injEq] at hp'
          subst hp'
          have : m = w := by omega
          subst this
          exact Buf.get_upd_self _ _ hlt
      · dsimp only
        rw [Buf.get_upd_ne _ _ (by omega)]; exact h3 m (by omega)
    · rintro ⟨b, w⟩ ⟨hw, h1, h2, h3⟩
      dsimp only at hw h1 h2 h3 ⊢
      rw [List.take_of_length_le (by simp), ← hsucc] at h2
      have hl2 : (pairsTo L (i + 1)).length = (pairsTo L i).length + (L.length - (i + 1)) := by rw [hsucc]; simp
      exact ⟨by omega, h1, h2, fun m hm => h3 m (by omega)⟩
  · rintro ⟨b, w⟩ ⟨hw, h1, h2, h3⟩
    dsimp only at hw h1 h2 h3 ⊢
    rw [wp_pure]
    exact ⟨h1, h2, h3⟩

end Scc
