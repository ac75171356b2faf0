/-
Lemmas on the specification of the algorithm of `scc_hierarchical_clustering` (Spec/HiTree.lean), and its connection with the result of a run.
-/
import Verif.Spec.HiTree
import Verif.Proofs.HiFacts

set_option linter.unusedVariables false

namespace Scc

variable {F : Type} [FloatOps F]

theorem Centers.congr {dist : Nat → Nat → F} {X Y : List Nat} {c1 c2 : Nat} (h : Centers dist X c1 c2) (hp : X.Perm Y) : Centers dist Y c1 c2 := by
  obtain ⟨Q, h1, h2, h3, h4⟩ := h.wide
  exact ⟨hp.mem_iff.1 h.mem1, hp.mem_iff.1 h.mem2, fun y hy => h.far1 y (hp.mem_iff.2 hy), fun y hy => h.far2 y (hp.mem_iff.2 hy),
    Q, h1, fun x hx => hp.mem_iff.1 (h2 hx), by rw [← hp.length_eq]; exact h3, fun q hq y hy => h4 q hq y (hp.mem_iff.2 hy)⟩

theorem SplitOf.congr {S : Nat} {batch : Bool} {dist : Nat → Nat → F} {X Y A B : List Nat} (h : SplitOf S batch dist X A B) (hp : X.Perm Y) : SplitOf S batch dist Y A B := by
  obtain ⟨c1, c2, U, A0, B0, V, A1, B1, h1, h2, h3⟩ := h
  exact ⟨c1, c2, U, A0, B0, V, A1, B1, h1.congr hp, hp.symm.trans h2, h3⟩

/-- The order in which the points of the starting cluster are listed does not matter. -/
theorem HiTree.congr {S : Nat} {batch : Bool} {dist : Nat → Nat → F} {X Y : List Nat} {ls : List (List Nat)} (h : HiTree S batch dist X ls) (hp : X.Perm Y) : HiTree S batch dist Y ls := by
  cases h with
  | none => rw [List.nil_perm.1 hp]; exact .none
  | leaf h1 h2 h3 => exact .leaf (fun h => h1 (List.perm_nil.1 (h ▸ hp))) (hp.length_eq ▸ h2) (h3.trans hp)
  | node h1 h2 h3 h4 => exact .node (hp.length_eq ▸ h1) (h2.congr hp) h3 h4

omit [FloatOps F] in
theorem forall₂_append_right {α β : Type} {R : α → β → Prop} : ∀ {xs ys : List α} {l : List β}, List.Forall₂ R (xs ++ ys) l → ∃ l1 l2, l = l1 ++ l2 ∧ List.Forall₂ R xs l1 ∧ List.Forall₂ R ys l2
  | [], _, l, h => ⟨[], l, rfl, .nil, h⟩
  | x :: xs, ys, _, .cons h1 h2 => by
    obtain ⟨l1, l2, rfl, h3, h4⟩ := forall₂_append_right h2
    exact ⟨_ :: l1, l2, rfl, .cons h1 h3, h4⟩

/-- The order in which the points of the new clusters are listed does not matter. -/
theorem HiTree.leaves {S : Nat} {batch : Bool} {dist : Nat → Nat → F} {X : List Nat} {ls : List (List Nat)} (h : HiTree S batch dist X ls) :
    ∀ {ls' : List (List Nat)}, List.Forall₂ List.Perm ls ls' → HiTree S batch dist X ls' := by
  induction h with
  | none => intro ls' h; cases h; exact .none
  | leaf h1 h2 h3 =>
    rintro _ (_ | ⟨h4, h5⟩)
    cases h5
    exact .leaf h1 h2 (h4.symm.trans h3)
  | node h1 h2 _ _ ih1 ih2 =>
    intro ls' h
    obtain ⟨l1, l2, rfl, h3, h4⟩ := forall₂_append_right h
    exact .node h1 h2 (ih1 h4) (ih2 h3)

theorem forest_leaves {S : Nat} {batch : Bool} {dist : Nat → Nat → F} : ∀ {orgs : List (List Nat)} {oss : List (List (List Nat))} {ls : List (List Nat)},
    List.Forall₂ (HiTree S batch dist) orgs oss → List.Forall₂ List.Perm oss.flatten ls → ∃ oss', List.Forall₂ (HiTree S batch dist) orgs oss' ∧ oss'.flatten = ls
  | [], [], ls, _, h => by cases h; exact ⟨[], .nil, rfl⟩
  | X :: orgs, os :: oss, ls, .cons h1 h2, h => by
    obtain ⟨l1, l2, rfl, h3, h4⟩ := forall₂_append_right (by simpa using h)
    obtain ⟨oss', h5, rfl⟩ := forest_leaves h2 h4
    exact ⟨l1 :: oss', .cons (h1.leaves h3) h5, rfl⟩

theorem forest_congr {S : Nat} {batch : Bool} {dist : Nat → Nat → F} : ∀ {orgs orgs' : List (List Nat)} {oss : List (List (List Nat))},
    List.Forall₂ (HiTree S batch dist) orgs oss → List.Forall₂ List.Perm orgs orgs' → List.Forall₂ (HiTree S batch dist) orgs' oss
  | _, _, _, .nil, .nil => .nil
  | _, _, _, .cons h1 h2, .cons h3 h4 => .cons (h1.congr h3) (forest_congr h2 h4)

theorem forest_mem {S : Nat} {batch : Bool} {dist : Nat → Nat → F} {f : Nat → List Nat} : ∀ {cs : List Nat} {oss : List (List (List Nat))} {ls : List (List Nat)},
    List.Forall₂ (HiTree S batch dist) (cs.map f) oss → ls ∈ oss → ∃ c ∈ cs, HiTree S batch dist (f c) ls
  | [], _, _, .nil, h => by cases h
  | c :: cs, _, _, .cons h1 h2, h => by
    rcases List.mem_cons.1 h with rfl | h
    · exact ⟨c, by simp, h1⟩
    · obtain ⟨c', h3, h4⟩ := forest_mem h2 h
      exact ⟨c', by simp [h3], h4⟩

theorem Cores.perm {d1 d2 : Nat → F} {k : Nat} {U A B V : List Nat} (h : Cores d1 d2 k U A B V) : U.Perm (A ++ (B ++ V)) := by
  cases h with
  | first h1 _ _ _ _ h2 => exact h1.split.trans (h2.split.append_left _)
  | second _ h1 _ _ _ h2 =>
    refine h1.split.trans ((h2.split.append_left _).trans ?_)
    rw [← List.append_assoc, ← List.append_assoc]
    exact List.perm_append_comm.append_right _

theorem Rounds.perm {d1 d2 : Nat → F} {k : Nat} {U A B : List Nat} (h : Rounds d1 d2 k U A B) : U.Perm (A ++ B) := by
  induction h with
  | done => exact .refl _
  | first _ h1 _ _ _ _ _ ih => rw [List.append_assoc]; exact h1.split.trans (ih.append_left _)
  | @second _ _ _ ys _ A B _ _ _ _ h1 _ _ _ _ ih =>
    refine h1.split.trans ((ih.append_left _).trans ?_)
    rw [← List.append_assoc, ← List.append_assoc]
    exact List.perm_append_comm.append_right _

/-- No point is lost in a split, and none is duplicated. -/
theorem SplitOf.perm {S : Nat} {batch : Bool} {dist : Nat → Nat → F} {X A B : List Nat} (h : SplitOf S batch dist X A B) : X.Perm (A ++ B) := by
  obtain ⟨c1, c2, U, A0, B0, V, A1, B1, -, h2, h3, h4, h5, h6⟩ := h
  refine h2.trans (.trans ?_ (h5.append h6).symm)
  have h7 := h3.perm
  have h8 := h4.perm
  rw [List.perm_iff_count] at *
  intro a
  have := h7 a
  have := h8 a
  simp only [List.count_cons, List.count_append] at *
  omega

/-- The new clusters are a partition of the cluster that one starts with. -/
theorem HiTree.partition {S : Nat} {batch : Bool} {dist : Nat → Nat → F} {X : List Nat} {ls : List (List Nat)} (h : HiTree S batch dist X ls) : ls.flatten.Perm X := by
  induction h with
  | none => exact .refl _
  | leaf _ _ h => simpa using h
  | node _ h _ _ ih1 ih2 =>
    rw [List.flatten_append]
    exact (ih2.append ih1).trans (List.perm_append_comm.trans h.perm.symm)

theorem HiTree.subset {S : Nat} {batch : Bool} {dist : Nat → Nat → F} {X L : List Nat} {ls : List (List Nat)} (h : HiTree S batch dist X ls) (hL : L ∈ ls) : L ⊆ X :=
  fun x hx => h.partition.mem_iff.1 (List.mem_flatten.2 ⟨L, hL, hx⟩)

theorem forall₂_map_range {α β : Type} {R : α → β → Prop} {l : List α} {k : Nat} {f : Nat → β} (hk : k = l.length) (h : ∀ j a, l[j]? = some a → R a (f j)) :
    List.Forall₂ R l ((List.range k).map f) := by
  subst hk
  refine List.forall₂_iff_get.2 ⟨by simp, fun i h1 h2 => ?_⟩
  simp only [List.get_eq_getElem, List.getElem_map, List.getElem_range]
  exact h i _ (List.getElem?_eq_getElem h1)

section
variable {cfg : Cfg} {n S : Nat} {batch : Bool} {dist : Nat → Nat → F} {labels0 labels old new : Buf Int} {k k' : Nat} {done : List HiEntry}

theorem HiResult.forall₂_members {orgs : List (List Nat)} (h : HiResult cfg n S batch dist orgs labels0 labels k done) (hcfg : cfg.Valid) (hs : ∀ O ∈ orgs, Spread S dist O)
    (hnd : orgs.flatten.Nodup) (hout : ∀ v, v < n → v ∉ orgs.flatten → labels0.get v = some cfg.na) :
    List.Forall₂ List.Perm (done.map HiEntry.pts) ((List.range k).map (members labels n)) := by
  refine forall₂_map_range (by rw [h.count, List.length_map]) fun j a hj => ?_
  rw [List.getElem?_map, Option.map_eq_some_iff] at hj
  obtain ⟨e, he, rfl⟩ := hj
  exact (h.members_perm hcfg hs hnd hout he).symm

theorem HiResult.tree (h : HiResult cfg n S batch dist [List.range n] labels0 labels k done) (hcfg : cfg.Valid) (hs : Spread S dist (List.range n)) :
    HiTree S batch dist (List.range n) ((List.range k).map (members labels n)) := by
  have hs' : ∀ O ∈ [List.range n], Spread S dist O := by simpa using hs
  obtain ⟨oss, h1, h2⟩ := h.forest hs'
  obtain ⟨oss', h3, h4⟩ := forest_leaves h1 (h2 ▸ h.forall₂_members hcfg hs' (by simpa using List.nodup_range) (fun v hv hno => absurd (by simpa using hv) hno))
  match oss', h3 with
  | [os], .cons h5 .nil =>
    rw [← h4]
    simpa using h5

theorem HiResult.trees (h : HiResult cfg n S batch dist ((oldStack old n k).map HiEntry.pts) old new k' done) (hcfg : cfg.Valid) (hv : ValidLabels cfg old n k)
    (hs : ∀ c, c < k → Spread S dist (members old n c)) :
    ∃ oss, List.Forall₂ (HiTree S batch dist) ((List.range k).reverse.map (members old n)) oss ∧ oss.flatten = (List.range k').map (members new n) := by
  have hs' : ∀ O ∈ (oldStack old n k).map HiEntry.pts, Spread S dist O := by
    intro O hO
    obtain ⟨e, he, rfl⟩ := List.mem_map.1 hO
    obtain ⟨c, hc, rfl⟩ := mem_oldStack.1 he
    intro x hx
    have := hs c hc x (by simpa [oldEntry] using hx)
    simpa [oldEntry, List.filter_reverse] using this
  have hout : ∀ v, v < n → v ∉ ((oldStack old n k).map HiEntry.pts).flatten → old.get v = some cfg.na := by
    intro v hvn hno
    rcases hv v hvn with hu | ⟨c, hc, hg⟩
    · exact hu
    · exact absurd (mem_flatten_oldStack.2 ⟨c, hc, mem_members.2 ⟨hvn, hg⟩⟩) hno
  obtain ⟨oss, h1, h2⟩ := h.forest hs'
  obtain ⟨oss', h3, h4⟩ := forest_leaves h1 (h2 ▸ h.forall₂_members hcfg hs' (nodup_oldStack old n k) hout)
  refine ⟨oss', forest_congr h3 ?_, h4⟩
  unfold oldStack
  rw [← List.map_reverse, List.map_map, List.forall₂_map_left_iff, List.forall₂_map_right_iff, List.forall₂_same]
  exact fun c _ => List.reverse_perm _

end

/-! ### Two groups of points that are far apart -/

theorem Takes.group {d : Nat → F} {U xs V : List Nat} {k : Nat} {p : Nat → Bool} (h : Takes d U k xs V) (hcount : k ≤ U.countP p)
    (hfar : ∀ x ∈ U, ∀ y ∈ U, p x = false → p y = true → FloatOps.le (d x) (d y) = false) : ∀ x ∈ xs, p x = true := by
  intro x hx
  by_contra hne
  have hne : p x = false := by simpa using hne
  have hV : V.countP p = 0 := by
    rw [List.countP_eq_zero]
    intro y hy hpy
    have h1 := hfar x (h.split.mem_iff.2 (by simp [hx])) y (h.split.mem_iff.2 (by simp [hy])) hne hpy
    rw [h.nearest x hx y hy] at h1
    cases h1
  have h1 := h.split.countP_eq p
  rw [List.countP_append, hV] at h1
  have h2 : xs.countP p < xs.length := by
    refine lt_of_le_of_ne List.countP_le_length fun h3 => ?_
    have := List.countP_eq_length.1 h3 x hx
    rw [hne] at this
    cases this
  have := h.count
  omega

theorem Cores.group {d1 d2 : Nat → F} {k : Nat} {U A B V : List Nat} {p : Nat → Bool} (h : Cores d1 d2 k U A B V) (h1 : k ≤ U.countP p) (h2 : k ≤ U.countP fun x => !p x)
    (hfar1 : ∀ x ∈ U, ∀ y ∈ U, p x = false → p y = true → FloatOps.le (d1 x) (d1 y) = false)
    (hfar2 : ∀ x ∈ U, ∀ y ∈ U, p x = true → p y = false → FloatOps.le (d2 x) (d2 y) = false) : (∀ x ∈ A, p x = true) ∧ ∀ x ∈ B, p x = false := by
  have hc : ∀ {xs V : List Nat} {q : Nat → Bool}, U.Perm (xs ++ V) → (∀ x ∈ xs, q x = false) → k ≤ U.countP q → k ≤ V.countP q := by
    intro xs V q hp hq hk
    have h0 : xs.countP q = 0 := by rw [List.countP_eq_zero]; intro y hy; simp [hq y hy]
    rwa [hp.countP_eq q, List.countP_append, h0, Nat.zero_add] at hk
  cases h with
  | first g1 _ _ _ _ g2 =>
    have hA := g1.group h1 hfar1
    refine ⟨hA, fun x hx => ?_⟩
    have hV : ∀ x ∈ _, x ∈ U := fun x hx => g1.split.mem_iff.2 (List.mem_append_right _ hx)
    have := g2.group (p := fun x => !p x) (hc g1.split (fun x hx => by simp [hA x hx]) h2) (fun x hx y hy e1 e2 => hfar2 x (hV x hx) y (hV y hy) (by simpa using e1) (by simpa using e2)) x hx
    simpa using this
  | second _ g1 _ _ _ g2 =>
    have hB := g1.group (p := fun x => !p x) h2 (fun x hx y hy e1 e2 => hfar2 x hx y hy (by simpa using e1) (by simpa using e2))
    have hV : ∀ x ∈ _, x ∈ U := fun x hx => g1.split.mem_iff.2 (List.mem_append_right _ hx)
    exact ⟨g2.group (hc g1.split (fun x hx => by simpa using hB x hx) h1) (fun x hx y hy => hfar1 x (hV x hx) y (hV y hy)), fun x hx => by simpa using hB x hx⟩


theorem Takes.one {d : Nat → F} {U xs V : List Nat} {k a : Nat} (h : Takes d U k xs V) (hk : k = 1) (ha : a ∈ xs) : xs = [a] := by
  obtain ⟨b, rfl⟩ := List.length_eq_one_iff.1 (h.count.trans hk)
  simp only [List.mem_singleton] at ha
  rw [ha]

/-- Points that are assigned one at a time go to the closer center, and to the first one in case of a tie. -/
theorem Rounds.closer {d1 d2 : Nat → F} {U A B : List Nat} (h : Rounds d1 d2 1 U A B) (ho : FloatLaws F) (hr1 : ∀ x ∈ U, FloatOps.le (d1 x) (d1 x) = true)
    (hr2 : ∀ x ∈ U, FloatOps.le (d2 x) (d2 x) = true) : (∀ x ∈ A, FloatOps.le (d1 x) (d2 x) = true) ∧ ∀ x ∈ B, FloatOps.le (d1 x) (d2 x) = false := by
  have hlow : ∀ {d : Nat → F} {U xs V : List Nat} {a x : Nat}, U ≠ [] → Takes d U (min 1 U.length) xs V → a ∈ xs → x ∈ U → (∀ x ∈ U, FloatOps.le (d x) (d x) = true) → FloatOps.le (d a) (d x) = true := by
    intro d U xs V a x hU hT ha hx hr
    have h1 := hT.one (by have := List.length_pos_iff.2 hU; omega) ha
    rcases List.mem_append.1 (hT.split.mem_iff.1 hx) with h2 | h2
    · rw [h1, List.mem_singleton] at h2
      subst h2
      exact hr x hx
    · exact hT.nearest a ha x h2
  induction h with
  | done => exact ⟨by simp, by simp⟩
  | @first U xs V ys W A B a b hU hT1 hT2 ha hb hle _ ih =>
    have hV : ∀ x ∈ V, x ∈ U := fun x hx => hT1.split.mem_iff.2 (List.mem_append_right _ hx)
    have ih := ih (fun x hx => hr1 x (hV x hx)) (fun x hx => hr2 x (hV x hx))
    refine ⟨fun x hx => ?_, ih.2⟩
    rcases List.mem_append.1 hx with hx | hx
    · rw [hT1.one (by have := List.length_pos_iff.2 hU; omega) ha.1, List.mem_singleton] at hx
      subst hx
      exact ho.trans _ _ _ hle (hlow hU hT2 hb.1 (hT1.split.mem_iff.2 (List.mem_append_left _ ha.1)) hr2)
    · exact ih.1 x hx
  | @second U xs V ys W A B a b hU hT1 hT2 ha hb hle _ ih =>
    have hV : ∀ x ∈ W, x ∈ U := fun x hx => hT2.split.mem_iff.2 (List.mem_append_right _ hx)
    have ih := ih (fun x hx => hr1 x (hV x hx)) (fun x hx => hr2 x (hV x hx))
    refine ⟨ih.1, fun x hx => ?_⟩
    rcases List.mem_append.1 hx with hx | hx
    · rw [hT2.one (by have := List.length_pos_iff.2 hU; omega) hb.1, List.mem_singleton] at hx
      subst hx
      by_contra hc
      have h1 := ho.trans _ _ _ (hlow hU hT1 ha.1 (hT2.split.mem_iff.2 (List.mem_append_left _ hb.1)) hr1) (by simpa using hc)
      rw [h1] at hle
      cases hle
    · exact ih.2 x hx

theorem Cores.length {d1 d2 : Nat → F} {k : Nat} {U A B V : List Nat} (h : Cores d1 d2 k U A B V) : A.length = k ∧ B.length = k := by
  cases h with
  | first h1 _ _ _ _ h2 => exact ⟨h1.count, h2.count⟩
  | second _ h1 _ _ _ h2 => exact ⟨h2.count, h1.count⟩

theorem SplitOf.groups {n S : Nat} {dist : Nat → Nat → F} {X A B : List Nat} {g : Nat → Bool} (h : SplitOf S false dist X A B) (hd : DistLaws n dist) (hX : ∀ x ∈ X, x < n) (hS : 1 ≤ S)
    (hg : TwoGroups S dist X g) : ∃ b, (∀ x ∈ A, g x = b) ∧ ∀ x ∈ B, g x = !b := by
  obtain ⟨c1, c2, U, A0, B0, V, A1, B1, hc, hp, hcore, hround, hA, hB⟩ := h
  have hne : g c2 ≠ g c1 := by
    intro he
    have := hg.large (!g c1)
    obtain ⟨y, hy⟩ := List.exists_mem_of_length_pos (l := X.filter fun x => g x = !g c1) (by omega)
    obtain ⟨hy, hgy⟩ := List.mem_filter.1 hy
    have h1 := hg.from_point c1 hc.mem1 c2 hc.mem2 y hy he (by intro h; simp [h] at hgy)
    rw [hc.far1 y hy] at h1
    cases h1
  have hU : ∀ x ∈ U, x ∈ X := fun x hx => hp.mem_iff.2 (by simp [hx])
  have hVU : ∀ x ∈ V, x ∈ U := fun x hx => hcore.perm.mem_iff.2 (by simp [hx])
  have hcount : ∀ b, X.countP (fun x => g x == b) = U.countP (fun x => g x == b) + 1 := by
    intro b
    rw [hp.countP_eq]
    simp only [List.countP_cons]
    have : (g c1 = b ∧ g c2 ≠ b) ∨ (g c1 ≠ b ∧ g c2 = b) := by
      cases h1 : g c1 <;> cases h2 : g c2 <;> cases b <;> simp_all
    rcases this with ⟨h1, h2⟩ | ⟨h1, h2⟩ <;> simp [h1, h2]
  have hlarge : ∀ b, S - 1 ≤ U.countP fun x => g x == b := by
    intro b
    have h1 := hg.large b
    rw [← List.countP_eq_length_filter] at h1
    have h2 := hcount b
    have : X.countP (fun x => decide (g x = b)) = X.countP (fun x => g x == b) := rfl
    omega
  have hcg := hcore.group (p := fun x => g x == g c1) (hlarge _) (by
      refine le_trans (hlarge (!g c1)) (le_of_eq (List.countP_congr fun x _ => ?_))
      cases g x <;> cases g c1 <;> simp)
    (fun x hx y hy h1 h2 => hg.from_point c1 hc.mem1 y (hU y hy) x (hU x hx) (by simpa using h2) (by simpa using h1))
    (fun x hx y hy h1 h2 => hg.from_point c2 hc.mem2 y (hU y hy) x (hU x hx) (by
      have h2 : g y ≠ g c1 := by simpa using h2
      cases h3 : g y <;> cases h4 : g c1 <;> cases h5 : g c2 <;> simp_all) (by
      have h1 : g x = g c1 := by simpa using h1
      rw [h1]; exact hne.symm))
  have hrg := hround.closer hd.order (fun x hx => hd.refl (hX _ hc.mem1) (hX x (hU x (hVU x hx)))) (fun x hx => hd.refl (hX _ hc.mem2) (hX x (hU x (hVU x hx))))
  have hrU : ∀ x, x ∈ A1 ∨ x ∈ B1 → x ∈ X := fun x hx => hU x (hVU x (hround.perm.mem_iff.2 (List.mem_append.2 hx)))
  refine ⟨g c1, fun x hx => ?_, fun x hx => ?_⟩
  · have hx := hA.mem_iff.1 hx
    simp only [List.mem_cons, List.mem_append] at hx
    rcases hx with rfl | hx | hx
    · rfl
    · simpa using hcg.1 x hx
    · by_contra h1
      have h2 := hg.to_point x (hrU x (.inl hx)) c2 hc.mem2 c1 hc.mem1 (by cases h3 : g x <;> cases h4 : g c1 <;> cases h5 : g c2 <;> simp_all) (fun h => h1 h.symm)
      rw [hrg.1 x hx] at h2
      cases h2
  · have hx := hB.mem_iff.1 hx
    simp only [List.mem_cons, List.mem_append] at hx
    have key : g x ≠ g c1 → g x = !g c1 := by cases g x <;> cases g c1 <;> simp
    refine key ?_
    rcases hx with rfl | hx | hx
    · exact hne
    · simpa using hcg.2 x hx
    · intro h1
      have h2 := hg.to_point x (hrU x (.inr hx)) c1 hc.mem1 c2 hc.mem2 h1.symm (by rw [h1]; exact hne)
      have hx1 := hX x (hrU x (.inr hx))
      have h3 := hrg.2 x hx
      rcases hd.order.total _ _ (hd.num c1 x (hX _ hc.mem1) hx1) (hd.num c2 x (hX _ hc.mem2) hx1) with h4 | h4
      · rw [h4] at h3; cases h3
      · rw [h4] at h2; cases h2

/-- If the cluster falls into two groups, then no new cluster has points of both. -/
theorem HiTree.groups {n S : Nat} {dist : Nat → Nat → F} {X : List Nat} {ls : List (List Nat)} {g : Nat → Bool} (h : HiTree S false dist X ls) (hd : DistLaws n dist) (hX : ∀ x ∈ X, x < n) (hS : 1 ≤ S)
    (hg : TwoGroups S dist X g) : ∀ L ∈ ls, ∀ u ∈ L, ∀ v ∈ L, g u = g v := by
  cases h with
  | none => simp
  | leaf h1 h2 h3 =>
    have e1 := hg.large true
    have e2 := hg.large false
    rw [← List.countP_eq_length_filter] at e1 e2
    have e3 := List.length_eq_countP_add_countP (fun x => decide (g x = true)) (l := X)
    have e4 : X.countP (fun x => decide (g x = false)) = X.countP (fun a => decide ¬ decide (g a = true) = true) := List.countP_congr fun x _ => by simp
    omega
  | node h1 h2 h3 h4 =>
    obtain ⟨b, hA, hB⟩ := h2.groups hd hX hS hg
    intro L hL u hu v hv
    rcases List.mem_append.1 hL with hL | hL
    · rw [hB u (h4.subset hL hu), hB v (h4.subset hL hv)]
    · rw [hA u (h3.subset hL hu), hA v (h3.subset hL hv)]

end Scc
