/-
Uniqueness of the seeds when the order in which vertices are considered is determined up to vertices that do not matter.
-/
import Verif.Proofs.SeedsFind

namespace Scc

/-- Two orders that follow the same strict rule among the vertices that still matter give the same seeds. -/
theorem unique_seeds {rows : Nat → List Nat} {lv : List Nat → Nat → Bool} {key : List Nat → Nat → Nat}
    (hcan : ∀ S x, CanAdd rows S x → lv S x = true) (hanti : ∀ S v x, lv (S ++ [v]) x = true → lv S x = true) (hkey : ∀ l l' : List Nat, l.Perm l' → key l = key l')
    {o1 o2 : List Nat}
    (h1 : ∀ pre v post, o1 = pre ++ v :: post → lv (greedySeeds rows pre) v = true → ∀ x ∈ post, lv (greedySeeds rows pre) x = true →
      key ((v :: post).filter (lv (greedySeeds rows pre))) v < key ((v :: post).filter (lv (greedySeeds rows pre))) x ∨
      key ((v :: post).filter (lv (greedySeeds rows pre))) v = key ((v :: post).filter (lv (greedySeeds rows pre))) x ∧ v < x)
    (h2 : ∀ pre v post, o2 = pre ++ v :: post → lv (greedySeeds rows pre) v = true → ∀ x ∈ post, lv (greedySeeds rows pre) x = true →
      key ((v :: post).filter (lv (greedySeeds rows pre))) v < key ((v :: post).filter (lv (greedySeeds rows pre))) x ∨
      key ((v :: post).filter (lv (greedySeeds rows pre))) v = key ((v :: post).filter (lv (greedySeeds rows pre))) x ∧ v < x)
    (k : Nat) : ∀ (pre1 post1 pre2 post2 : List Nat), post1.length + post2.length ≤ k → o1 = pre1 ++ post1 → o2 = pre2 ++ post2 → post1.Nodup → post2.Nodup →
      greedySeeds rows pre1 = greedySeeds rows pre2 →
      (∀ x, x ∈ post1 ∧ lv (greedySeeds rows pre1) x = true ↔ x ∈ post2 ∧ lv (greedySeeds rows pre1) x = true) →
      greedySeeds rows o1 = greedySeeds rows o2 := by
  induction k with
  | zero =>
    intro pre1 post1 pre2 post2 hk e1 e2 n1 n2 hS hset
    rw [List.eq_nil_of_length_eq_zero (l := post1) (by omega), List.append_nil] at e1
    rw [List.eq_nil_of_length_eq_zero (l := post2) (by omega), List.append_nil] at e2
    rw [e1, e2, hS]
  | succ k ih =>
    intro pre1 post1 pre2 post2 hk e1 e2 n1 n2 hS hset
    have skip : ∀ (pre : List Nat) v, lv (greedySeeds rows pre) v = false → greedySeeds rows (pre ++ [v]) = greedySeeds rows pre := by
      intro pre v hv
      rw [greedySeeds_snoc, if_neg (fun hc => by rw [hcan _ _ hc] at hv; cases hv)]
    -- a head that does not matter on the first side
    by_cases hd1 : ∃ v t, post1 = v :: t ∧ lv (greedySeeds rows pre1) v = false
    · obtain ⟨v, t, rfl, hv⟩ := hd1
      refine ih (pre1 ++ [v]) t pre2 post2 (by simp at hk; omega) (by rw [e1]; simp) e2 (List.nodup_cons.1 n1).2 n2 (by rw [skip _ _ hv, hS]) fun x => ?_
      rw [skip _ _ hv, ← hset x]
      constructor
      · rintro ⟨a, b⟩; exact ⟨List.mem_cons_of_mem _ a, b⟩
      · rintro ⟨a, b⟩
        rcases List.mem_cons.1 a with rfl | a
        · rw [hv] at b; cases b
        · exact ⟨a, b⟩
    by_cases hd2 : ∃ v t, post2 = v :: t ∧ lv (greedySeeds rows pre1) v = false
    · obtain ⟨v, t, rfl, hv⟩ := hd2
      have hv2 := hv
      rw [hS] at hv2
      refine ih pre1 post1 (pre2 ++ [v]) t (by simp at hk; omega) e1 (by rw [e2]; simp) n1 (List.nodup_cons.1 n2).2 (by rw [skip _ _ hv2, hS]) fun x => ?_
      rw [hset x]
      constructor
      · rintro ⟨a, b⟩
        rcases List.mem_cons.1 a with rfl | a
        · rw [hv] at b; cases b
        · exact ⟨a, b⟩
      · rintro ⟨a, b⟩; exact ⟨List.mem_cons_of_mem _ a, b⟩
    cases post1 with
    | nil =>
      cases post2 with
      | nil => rw [e1, e2, List.append_nil, List.append_nil, hS]
      | cons v2 t2 =>
        have hv2 : lv (greedySeeds rows pre1) v2 = true := by
          by_contra hx; exact hd2 ⟨v2, t2, rfl, by simpa using hx⟩
        exact absurd ((hset v2).2 ⟨by simp, hv2⟩).1 (by simp)
    | cons v1 t1 =>
      have hv1 : lv (greedySeeds rows pre1) v1 = true := by
        by_contra hx; exact hd1 ⟨v1, t1, rfl, by simpa using hx⟩
      cases post2 with
      | nil => exact absurd ((hset v1).1 ⟨by simp, hv1⟩).1 (by simp)
      | cons v2 t2 =>
        have hv2 : lv (greedySeeds rows pre1) v2 = true := by
          by_contra hx; exact hd2 ⟨v2, t2, rfl, by simpa using hx⟩
        have hperm : ((v1 :: t1).filter (lv (greedySeeds rows pre1))).Perm ((v2 :: t2).filter (lv (greedySeeds rows pre1))) := by
          refine (List.perm_ext_iff_of_nodup (n1.filter _) (n2.filter _)).2 fun x => ?_
          rw [List.mem_filter, List.mem_filter]
          exact hset x
        have heq : v1 = v2 := by
          by_contra hne
          have m1 : v1 ∈ t2 := by
            rcases List.mem_cons.1 ((hset v1).1 ⟨by simp, hv1⟩).1 with a | a
            · exact absurd a hne
            · exact a
          have m2 : v2 ∈ t1 := by
            rcases List.mem_cons.1 ((hset v2).2 ⟨by simp, hv2⟩).1 with a | a
            · exact absurd a.symm hne
            · exact a
          have a1 := h1 pre1 v1 t1 e1 hv1 v2 m2 hv2
          have a2 := h2 pre2 v2 t2 e2 (by rw [← hS]; exact hv2) v1 m1 (by rw [← hS]; exact hv1)
          rw [← hS, ← hkey _ _ hperm] at a2
          omega
        subst heq
        have hS' : greedySeeds rows (pre1 ++ [v1]) = greedySeeds rows (pre2 ++ [v1]) := by
          rw [greedySeeds_snoc, greedySeeds_snoc, hS]
        have hmon : ∀ x, lv (greedySeeds rows (pre1 ++ [v1])) x = true → lv (greedySeeds rows pre1) x = true := by
          intro x hx
          rw [greedySeeds_snoc] at hx
          split at hx
          · exact hanti _ _ _ hx
          · exact hx
        refine ih (pre1 ++ [v1]) t1 (pre2 ++ [v1]) t2 (by simp at hk; omega) (by rw [e1]; simp) (by rw [e2]; simp) (List.nodup_cons.1 n1).2 (List.nodup_cons.1 n2).2 hS' fun x => ?_
        constructor
        · rintro ⟨a, b⟩
          have hne : x ≠ v1 := fun hx => (List.nodup_cons.1 n1).1 (hx ▸ a)
          rcases List.mem_cons.1 ((hset x).1 ⟨List.mem_cons_of_mem _ a, hmon x b⟩).1 with c | c
          · exact absurd c hne
          · exact ⟨c, b⟩
        · rintro ⟨a, b⟩
          have hne : x ≠ v1 := fun hx => (List.nodup_cons.1 n2).1 (hx ▸ a)
          rcases List.mem_cons.1 ((hset x).2 ⟨List.mem_cons_of_mem _ a, hmon x b⟩).1 with c | c
          · exact absurd c hne
          · exact ⟨c, b⟩

section
variable {rows : Nat → List Nat} {n : Nat} {o1 o2 : List Nat}

theorem not_captured_of_canAdd {S : List Nat} {x : Nat} (h : CanAdd rows S x) : ¬ Captured rows S x := by
  rintro ⟨s, hs, hx⟩
  exact h.2 s hs x (by simp [closedNbr]) hx

/-- Vertices without arcs do not contribute. -/
theorem arcsFrom_filter (l : List Nat) (p : Nat → Bool) : arcsFrom rows (l.filter p) = arcsFrom rows (l.filter fun x => p x && decide (rows x ≠ [])) := by
  funext y
  unfold arcsFrom
  induction l with
  | nil => rfl
  | cons a l ih =>
    by_cases hp : p a = true
    · by_cases hr : rows a = []
      · simp [hp, hr, ih]
      · simp [hp, hr, ih]
    · simp [hp, ih]

theorem arcsFrom_perm {l l' : List Nat} (h : l.Perm l') : arcsFrom rows l = arcsFrom rows l' := by
  funext y
  exact (h.map _).sum_eq

theorem stableByArcs_unique (p1 : o1.Perm (List.range n)) (p2 : o2.Perm (List.range n)) (h1 : StableByArcs rows o1) (h2 : StableByArcs rows o2) :
    greedySeeds rows o1 = greedySeeds rows o2 := by
  have conv : ∀ o, StableByArcs rows o → ∀ pre v post, o = pre ++ v :: post →
      (decide (¬ Captured rows (greedySeeds rows pre) v) && decide (rows v ≠ [])) = true → ∀ x ∈ post, (decide (¬ Captured rows (greedySeeds rows pre) x) && decide (rows x ≠ [])) = true →
      arcsFrom rows ((v :: post).filter fun x => decide (¬ Captured rows (greedySeeds rows pre) x) && decide (rows x ≠ [])) v <
        arcsFrom rows ((v :: post).filter fun x => decide (¬ Captured rows (greedySeeds rows pre) x) && decide (rows x ≠ [])) x ∨
      arcsFrom rows ((v :: post).filter fun x => decide (¬ Captured rows (greedySeeds rows pre) x) && decide (rows x ≠ [])) v =
        arcsFrom rows ((v :: post).filter fun x => decide (¬ Captured rows (greedySeeds rows pre) x) && decide (rows x ≠ [])) x ∧ v < x := by
    intro o h pre v post hs hv x hx hlx
    simp only [Bool.and_eq_true, decide_eq_true_eq] at hv hlx
    have := h pre v post hs hv.1 hv.2 x hx hlx.1 hlx.2
    rw [arcsFrom_filter] at this
    exact this
  refine unique_seeds (lv := fun S x => decide (¬ Captured rows S x) && decide (rows x ≠ [])) (key := arcsFrom rows) (fun S x hc => ?_) (fun S v x hx => ?_) (fun l l' => arcsFrom_perm)
    (conv o1 h1) (conv o2 h2) _ [] o1 [] o2 le_rfl rfl rfl (p1.nodup_iff.2 List.nodup_range) (p2.nodup_iff.2 List.nodup_range) rfl (fun x => ?_)
  · simp only [Bool.and_eq_true, decide_eq_true_eq]
    exact ⟨not_captured_of_canAdd hc, hc.1⟩
  · simp only [Bool.and_eq_true, decide_eq_true_eq] at hx ⊢
    exact ⟨fun hc => hx.1 (captured_snoc.2 (Or.inl hc)), hx.2⟩
  · rw [p1.mem_iff, p2.mem_iff]

theorem stableByConflicts_unique (p1 : o1.Perm (List.range n)) (p2 : o2.Perm (List.range n)) (h1 : StableByConflicts rows o1) (h2 : StableByConflicts rows o2) :
    greedySeeds rows o1 = greedySeeds rows o2 := by
  refine unique_seeds (lv := fun S x => decide (CanAdd rows S x)) (key := conflictsFrom rows) (fun S x hc => by simpa using hc) (fun S v x hx => ?_)
    (fun l l' h => funext fun y => h.countP_eq _)
    (fun pre v post hs hv x hx hlx => h1 pre v post hs (by simpa using hv) x hx (by simpa using hlx))
    (fun pre v post hs hv x hx hlx => h2 pre v post hs (by simpa using hv) x hx (by simpa using hlx))
    _ [] o1 [] o2 le_rfl rfl rfl (p1.nodup_iff.2 List.nodup_range) (p2.nodup_iff.2 List.nodup_range) rfl (fun x => ?_)
  · simp only [decide_eq_true_eq] at hx ⊢
    exact ⟨hx.1, fun s hs => hx.2 s (by simp [hs])⟩
  · rw [p1.mem_iff, p2.mem_iff]

theorem sorted_unique {key : Nat → Nat} (p : o1.Perm o2) (h1 : o1.Pairwise fun a b => key a < key b ∨ key a = key b ∧ a < b)
    (h2 : o2.Pairwise fun a b => key a < key b ∨ key a = key b ∧ a < b) : o1 = o2 :=
  List.Perm.eq_of_pairwise (fun a b _ _ hab hba => by omega) h1 h2 p

theorem stableOrder_unique {m : SeedMethod} (p1 : o1.Perm (List.range n)) (p2 : o2.Perm (List.range n)) (h1 : StableOrder m rows n o1) (h2 : StableOrder m rows n o2) :
    greedySeeds rows o1 = greedySeeds rows o2 := by
  cases m with
  | lexical => rw [show o1 = _ from h1, show o2 = _ from h2]
  | inwardsOrder => rw [sorted_unique (p1.trans p2.symm) h1 h2]
  | inwardsUpdating => exact stableByArcs_unique p1 p2 h1 h2
  | exclusionOrder => rw [sorted_unique (p1.trans p2.symm) h1 h2]
  | exclusionUpdating => exact stableByConflicts_unique p1 p2 h1 h2

end

/-! ### Two digraphs with the same arcs -/

section
variable {rows rows' : Nat → List Nat} {n : Nat}

theorem SameArcs.symm (h : SameArcs n rows rows') : SameArcs n rows' rows := fun v hv => (h v hv).symm

theorem SameArcs.mem_closed (h : SameArcs n rows rows') {v : Nat} (hv : v < n) (x : Nat) : x ∈ closedNbr rows v ↔ x ∈ closedNbr rows' v := by
  unfold closedNbr
  rw [List.mem_cons, List.mem_cons, (h v hv).mem_iff]

theorem SameArcs.ne_nil (h : SameArcs n rows rows') {v : Nat} (hv : v < n) : rows v ≠ [] ↔ rows' v ≠ [] := by
  rw [not_iff_not, ← List.length_eq_zero_iff, ← List.length_eq_zero_iff, (h v hv).length_eq]

theorem SameArcs.canAdd (h : SameArcs n rows rows') {S : List Nat} (hS : ∀ s ∈ S, s < n) {v : Nat} (hv : v < n) : CanAdd rows S v ↔ CanAdd rows' S v := by
  unfold CanAdd
  rw [h.ne_nil hv]
  refine and_congr_right fun _ => forall₂_congr fun s hs => forall_congr' fun x => ?_
  rw [h.mem_closed hv, h.mem_closed (hS s hs)]

theorem SameArcs.captured (h : SameArcs n rows rows') {S : List Nat} (hS : ∀ s ∈ S, s < n) (x : Nat) : Captured rows S x ↔ Captured rows' S x := by
  unfold Captured
  refine exists_congr fun s => and_congr_right fun hs => h.mem_closed (hS s hs) x

theorem SameArcs.greedy (h : SameArcs n rows rows') {o : List Nat} (ho : ∀ v ∈ o, v < n) : greedySeeds rows o = greedySeeds rows' o := by
  induction o using List.reverseRecOn with
  | nil => rfl
  | append_singleton l v ih =>
    have ihl := ih (fun x hx => ho x (by simp [hx]))
    have hiff : CanAdd rows (greedySeeds rows l) v ↔ CanAdd rows' (greedySeeds rows' l) v := by
      rw [← ihl]
      exact h.canAdd (fun s hs => ho s (by simp [(greedySeeds_sublist rows l).subset hs])) (ho v (by simp))
    rw [greedySeeds_snoc, greedySeeds_snoc]
    by_cases hc : CanAdd rows (greedySeeds rows l) v
    · rw [if_pos hc, if_pos (hiff.1 hc), ihl]
    · rw [if_neg hc, if_neg (fun hx => hc (hiff.2 hx)), ihl]

theorem SameArcs.arcs (h : SameArcs n rows rows') {l : List Nat} (hl : ∀ v ∈ l, v < n) : arcsFrom rows l = arcsFrom rows' l := by
  funext y
  unfold arcsFrom
  congr 1
  exact List.map_congr_left fun u hu => (h u (hl u hu)).count_eq y

theorem SameArcs.conflict (h : SameArcs n rows rows') {u v : Nat} (hu : u < n) (hv : v < n) : Conflict rows u v ↔ Conflict rows' u v := by
  unfold Conflict
  refine and_congr_right fun _ => exists_congr fun x => ?_
  rw [h.mem_closed hu, h.mem_closed hv]

theorem SameArcs.conflicts (h : SameArcs n rows rows') {l : List Nat} (hl : ∀ v ∈ l, v < n) {y : Nat} (hy : y < n) : conflictsFrom rows l y = conflictsFrom rows' l y := by
  unfold conflictsFrom
  refine List.countP_congr fun u hu => ?_
  rw [decide_eq_true_eq, decide_eq_true_eq, h.ne_nil (hl u hu), h.conflict (hl u hu) hy]

theorem SameArcs.stableOrder (h : SameArcs n rows rows') {m : SeedMethod} {o : List Nat} (p : o.Perm (List.range n)) (ho : StableOrder m rows n o) : StableOrder m rows' n o := by
  have hlt : ∀ v ∈ o, v < n := fun v hv => by simpa using p.mem_iff.1 hv
  have hr : ∀ v ∈ List.range n, v < n := by simp
  cases m with
  | lexical => exact ho
  | inwardsOrder =>
    show o.Pairwise _
    have ho' : o.Pairwise _ := ho
    rw [h.arcs hr] at ho'
    exact ho'
  | exclusionOrder =>
    show o.Pairwise _
    have ho' : o.Pairwise _ := ho
    refine ho'.imp_of_mem fun ha hb hab => ?_
    rwa [h.conflicts hr (hlt _ ha), h.conflicts hr (hlt _ hb)] at hab
  | inwardsUpdating =>
    intro pre v post hs
    have hvp : ∀ x ∈ v :: post, x < n := fun x hx => hlt x (by rw [hs]; exact List.mem_append_right _ hx)
    have hpre : ∀ x ∈ pre, x < n := fun x hx => hlt x (by rw [hs]; exact List.mem_append_left _ hx)
    have hS : ∀ s ∈ greedySeeds rows' pre, s < n := fun s hs => hpre s ((greedySeeds_sublist rows' pre).subset hs)
    have := ho pre v post hs
    rw [h.greedy hpre] at this
    intro free left hv hrv x hx hfx hrx
    have hfil : (v :: post).filter (fun x => decide (¬ Captured rows (greedySeeds rows' pre) x)) = left := by
      refine List.filter_congr fun y _ => ?_
      rw [decide_eq_decide]
      exact (h.captured hS y).not
    have h3 := this ((h.captured hS v).not.2 hv) ((h.ne_nil (hvp v (by simp))).2 hrv) x hx ((h.captured hS x).not.2 hfx) ((h.ne_nil (hvp x (by simp [hx]))).2 hrx)
    rw [hfil, h.arcs (fun y hy => hvp y (List.mem_of_mem_filter hy))] at h3
    exact h3
  | exclusionUpdating =>
    intro pre v post hs
    have hvp : ∀ x ∈ v :: post, x < n := fun x hx => hlt x (by rw [hs]; exact List.mem_append_right _ hx)
    have hpre : ∀ x ∈ pre, x < n := fun x hx => hlt x (by rw [hs]; exact List.mem_append_left _ hx)
    have hS : ∀ s ∈ greedySeeds rows' pre, s < n := fun s hs => hpre s ((greedySeeds_sublist rows' pre).subset hs)
    have := ho pre v post hs
    rw [h.greedy hpre] at this
    intro can left hv x hx hfx
    have hfil : (v :: post).filter (fun x => decide (CanAdd rows (greedySeeds rows' pre) x)) = left := by
      refine List.filter_congr fun y hy => ?_
      rw [decide_eq_decide]
      exact h.canAdd hS (hvp y hy)
    have h3 := this ((h.canAdd hS (hvp v (by simp))).2 hv) x hx ((h.canAdd hS (hvp x (by simp [hx]))).2 hfx)
    have hln : ∀ y ∈ left, y < n := fun y hy => hvp y (List.mem_of_mem_filter hy)
    rw [hfil, h.conflicts hln (hvp v (by simp)), h.conflicts hln (hvp x (by simp [hx]))] at h3
    exact h3

end

end Scc
