/-
The tree of splits of `scc_hierarchical_clustering` (Spec/HiTree.lean) is unique when there are no ties and the centers are unambiguous.
-/
import Verif.Spec.HiClear
import Verif.Proofs.HiTree

set_option linter.unusedVariables false

namespace Scc

variable {F G : Type} [FloatOps F] [FloatOps G]

/-! ### Other names for the points -/

section
variable {dist : Nat → Nat → F} {dist' : Nat → Nat → G} {κ : Nat → Nat} {X : List Nat}

/-- Distances between points of `X` compare like the distances between their images. -/
def CompareAlike (dist : Nat → Nat → F) (dist' : Nat → Nat → G) (X : List Nat) (κ : Nat → Nat) : Prop :=
  ∀ x ∈ X, ∀ y ∈ X, ∀ u ∈ X, ∀ v ∈ X, FloatOps.le (dist (κ x) (κ y)) (dist (κ u) (κ v)) = FloatOps.le (dist' x y) (dist' u v)

theorem Takes.map {c k : Nat} {U xs V : List Nat} (h : Takes (dist' c) U k xs V) (ha : CompareAlike dist dist' X κ) (hU : U ⊆ X) (hc : c ∈ X) :
    Takes (dist (κ c)) (U.map κ) k (xs.map κ) (V.map κ) where
  split := by rw [← List.map_append]; exact h.split.map κ
  count := by rw [List.length_map]; exact h.count
  nearest := by
    intro x hx' y hy'
    obtain ⟨x, hx, rfl⟩ := List.mem_map.1 hx'
    obtain ⟨y, hy, rfl⟩ := List.mem_map.1 hy'
    rw [ha c hc x (hU (h.split.mem_iff.2 (by simp [hx]))) c hc y (hU (h.split.mem_iff.2 (by simp [hy])))]
    exact h.nearest x hx y hy

theorem Outermost.map {c a : Nat} {xs : List Nat} (h : Outermost (dist' c) xs a) (ha : CompareAlike dist dist' X κ) (hxs : xs ⊆ X) (hc : c ∈ X) : Outermost (dist (κ c)) (xs.map κ) (κ a) := by
  refine ⟨List.mem_map_of_mem h.1, fun x hx' => ?_⟩
  obtain ⟨x, hx, rfl⟩ := List.mem_map.1 hx'
  rw [ha c hc x (hxs hx) c hc a (hxs h.1)]
  exact h.2 x hx

theorem Takes.sub {d : Nat → F} {U xs V : List Nat} {k : Nat} (h : Takes d U k xs V) (hU : U ⊆ X) : xs ⊆ X ∧ V ⊆ X :=
  ⟨fun x hx => hU (h.split.mem_iff.2 (by simp [hx])), fun x hx => hU (h.split.mem_iff.2 (by simp [hx]))⟩

theorem Cores.map {c1 c2 k : Nat} {U A B V : List Nat} (h : Cores (dist' c1) (dist' c2) k U A B V) (ha : CompareAlike dist dist' X κ) (hU : U ⊆ X) (h1 : c1 ∈ X) (h2 : c2 ∈ X) :
    Cores (dist (κ c1)) (dist (κ c2)) k (U.map κ) (A.map κ) (B.map κ) (V.map κ) := by
  cases h with
  | @first _ V _ W _ _ a b t1 t2 o1 o2 hl t3 =>
    have s1 := t1.sub hU
    have s2 := t2.sub hU
    exact .first (t1.map ha hU h1) (t2.map ha hU h2) (o1.map ha s1.1 h1) (o2.map ha s2.1 h2) (by rw [ha _ h2 _ (s2.1 o2.1) _ h1 _ (s1.1 o1.1)]; exact hl) (t3.map ha s1.2 h2)
  | @second _ V _ W _ _ a b t1 t2 o1 o2 hl t3 =>
    have s1 := t1.sub hU
    have s2 := t2.sub hU
    exact .second (t1.map ha hU h1) (t2.map ha hU h2) (o1.map ha s1.1 h1) (o2.map ha s2.1 h2) (by rw [ha _ h2 _ (s2.1 o2.1) _ h1 _ (s1.1 o1.1)]; exact hl) (t3.map ha s2.2 h1)

theorem Rounds.map {c1 c2 k : Nat} {U A B : List Nat} (h : Rounds (dist' c1) (dist' c2) k U A B) (ha : CompareAlike dist dist' X κ) (h1 : c1 ∈ X) (h2 : c2 ∈ X) :
    U ⊆ X → Rounds (dist (κ c1)) (dist (κ c2)) k (U.map κ) (A.map κ) (B.map κ) := by
  induction h with
  | done => exact fun _ => .done
  | @first U xs V ys W A B a b hU t1 t2 o1 o2 hl _ ih =>
    intro hs
    have s1 := t1.sub hs
    have s2 := t2.sub hs
    rw [List.map_append]
    exact .first (by simpa using hU) (by rw [List.length_map]; exact t1.map ha hs h1) (by rw [List.length_map]; exact t2.map ha hs h2) (o1.map ha s1.1 h1) (o2.map ha s2.1 h2)
      (by rw [ha _ h1 _ (s1.1 o1.1) _ h2 _ (s2.1 o2.1)]; exact hl) (ih s1.2)
  | @second U xs V ys W A B a b hU t1 t2 o1 o2 hl _ ih =>
    intro hs
    have s1 := t1.sub hs
    have s2 := t2.sub hs
    rw [List.map_append]
    exact .second (by simpa using hU) (by rw [List.length_map]; exact t1.map ha hs h1) (by rw [List.length_map]; exact t2.map ha hs h2) (o1.map ha s1.1 h1) (o2.map ha s2.1 h2)
      (by rw [ha _ h1 _ (s1.1 o1.1) _ h2 _ (s2.1 o2.1)]; exact hl) (ih s2.2)

theorem CompareAlike.mono {Y : List Nat} (h : CompareAlike dist dist' X κ) (hY : Y ⊆ X) : CompareAlike dist dist' Y κ := fun x hx y hy u hu v hv => h x (hY hx) y (hY hy) u (hY hu) v (hY hv)

theorem Centers.map {c1 c2 : Nat} (h : Centers dist' X c1 c2) (ha : CompareAlike dist dist' X κ) (hinj : ∀ x ∈ X, ∀ y ∈ X, κ x = κ y → x = y) : Centers dist (X.map κ) (κ c1) (κ c2) where
  mem1 := List.mem_map_of_mem h.mem1
  mem2 := List.mem_map_of_mem h.mem2
  far1 y hy' := by
    obtain ⟨y, hy, rfl⟩ := List.mem_map.1 hy'
    rw [ha _ h.mem1 _ hy _ h.mem1 _ h.mem2]; exact h.far1 y hy
  far2 y hy' := by
    obtain ⟨y, hy, rfl⟩ := List.mem_map.1 hy'
    rw [ha _ h.mem2 _ hy _ h.mem1 _ h.mem2]; exact h.far2 y hy
  wide := by
    obtain ⟨Q, q1, q2, q3, q4⟩ := h.wide
    refine ⟨Q.map κ, List.Nodup.map_on (fun x hx y hy e => hinj x (q2 hx) y (q2 hy) e) q1, List.map_subset κ q2, by simpa using q3, fun q hq' y hy' => ?_⟩
    obtain ⟨q, hq, rfl⟩ := List.mem_map.1 hq'
    obtain ⟨y, hy, rfl⟩ := List.mem_map.1 hy'
    rw [ha _ (q2 hq) _ hy _ h.mem1 _ h.mem2]; exact q4 q hq y hy

theorem SplitOf.map {S : Nat} {batch : Bool} {A B : List Nat} (h : SplitOf S batch dist' X A B) (ha : CompareAlike dist dist' X κ) (hinj : ∀ x ∈ X, ∀ y ∈ X, κ x = κ y → x = y) :
    SplitOf S batch dist (X.map κ) (A.map κ) (B.map κ) := by
  obtain ⟨c1, c2, U, A0, B0, V, A1, B1, h1, h2, h3, h4, h5, h6⟩ := h
  have hU : U ⊆ X := fun x hx => h2.mem_iff.2 (by simp [hx])
  have hV : V ⊆ X := fun x hx => hU (h3.perm.mem_iff.2 (by simp [hx]))
  exact ⟨κ c1, κ c2, U.map κ, A0.map κ, B0.map κ, V.map κ, A1.map κ, B1.map κ, h1.map ha hinj, by simpa using h2.map κ, h3.map ha hU h1.mem1 h1.mem2, h4.map ha h1.mem1 h1.mem2 hV,
    by simpa using h5.map κ, by simpa using h6.map κ⟩

theorem HiTree.map {S : Nat} {batch : Bool} {ls : List (List Nat)} (h : HiTree S batch dist' X ls) :
    CompareAlike dist dist' X κ → (∀ x ∈ X, ∀ y ∈ X, κ x = κ y → x = y) → HiTree S batch dist (X.map κ) (ls.map (List.map κ)) := by
  induction h with
  | none => exact fun _ _ => .none
  | leaf h1 h2 h3 => exact fun _ _ => .leaf (by simpa using h1) (by simpa using h2) (h3.map κ)
  | @node X A B ls rs h1 h2 _ _ ih1 ih2 =>
    intro ha hinj
    have hA : A ⊆ X := fun x hx => h2.perm.mem_iff.2 (by simp [hx])
    have hB : B ⊆ X := fun x hx => h2.perm.mem_iff.2 (by simp [hx])
    rw [List.map_append]
    exact .node (by simpa using h1) (h2.map ha hinj) (ih1 (ha.mono hA) fun x hx y hy => hinj x (hA hx) y (hA hy)) (ih2 (ha.mono hB) fun x hx y hy => hinj x (hB hx) y (hB hy))

end

/-! ### Uniqueness -/

/-- Different points of `U` have different values of `d`. -/
def NoTie (d : Nat → F) (U : List Nat) : Prop := ∀ x ∈ U, ∀ y ∈ U, FloatOps.le (d x) (d y) = true → FloatOps.le (d y) (d x) = true → x = y

/-- Values of `d1` and of `d2` are numbers and never tied. -/
def NoCross (d1 d2 : Nat → F) (U : List Nat) : Prop := ∀ x ∈ U, ∀ y ∈ U, FloatOps.le (d1 x) (d2 y) = !FloatOps.le (d2 y) (d1 x)

theorem NoTie.mono {d : Nat → F} {U V : List Nat} (h : NoTie d U) (hV : V ⊆ U) : NoTie d V := fun x hx y hy => h x (hV hx) y (hV hy)
theorem NoCross.mono {d1 d2 : Nat → F} {U V : List Nat} (h : NoCross d1 d2 U) (hV : V ⊆ U) : NoCross d1 d2 V := fun x hx y hy => h x (hV hx) y (hV hy)

theorem Takes.unique {d : Nat → F} {U U' xs V xs' V' : List Nat} {k : Nat} (h : Takes d U k xs V) (h' : Takes d U' k xs' V') (hp : U.Perm U') (hn : U.Nodup) (ht : NoTie d U) :
    xs.Perm xs' ∧ V.Perm V' := by
  have e : (xs ++ V).Perm (xs' ++ V') := h.split.symm.trans (hp.trans h'.split)
  have n1 : (xs ++ V).Nodup := h.split.nodup_iff.1 hn
  have n2 : (xs' ++ V').Nodup := e.nodup_iff.1 n1
  have hxs : xs.Perm xs' := by
    by_cases hsub : xs' ⊆ xs
    · exact ((List.subperm_of_subset n2.of_append_left hsub).perm_of_length_le (by rw [h.count, h'.count])).symm
    · obtain ⟨y, hy, hyn⟩ : ∃ y ∈ xs', y ∉ xs := by
        by_contra hc
        exact hsub fun y hy => by_contra fun hyn => hc ⟨y, hy, hyn⟩
      have hyV : y ∈ V := (List.mem_append.1 (e.mem_iff.2 (List.mem_append_left _ hy))).resolve_left hyn
      obtain ⟨x, hx, hxn⟩ : ∃ x ∈ xs, x ∉ xs' := by
        by_contra hc
        have hs : xs ⊆ xs' := fun x hx => by_contra fun hxn => hc ⟨x, hx, hxn⟩
        have := (List.subperm_of_subset n1.of_append_left hs).perm_of_length_le (by rw [h.count, h'.count])
        exact hyn (this.mem_iff.2 hy)
      have hxV : x ∈ V' := (List.mem_append.1 (e.mem_iff.1 (List.mem_append_left _ hx))).resolve_left hxn
      have := ht x (h.split.mem_iff.2 (by simp [hx])) y (h.split.mem_iff.2 (by simp [hyV])) (h.nearest x hx y hyV) (h'.nearest y hy x hxV)
      subst this
      exact absurd hy hxn
  exact ⟨hxs, (List.perm_append_left_iff xs).1 (e.trans (hxs.symm.append_right V'))⟩

theorem Outermost.unique {d : Nat → F} {U xs xs' : List Nat} {a a' : Nat} (h : Outermost d xs a) (h' : Outermost d xs' a') (hp : xs.Perm xs') (ht : NoTie d xs) : a = a' :=
  ht a h.1 a' (hp.mem_iff.2 h'.1) (h'.2 a (hp.mem_iff.1 h.1)) (h.2 a' (hp.mem_iff.2 h'.1))

theorem Takes.subs {d : Nat → F} {U xs V : List Nat} {k : Nat} (h : Takes d U k xs V) : xs ⊆ U ∧ V ⊆ U := h.sub (fun _ h => h)

theorem Takes.nodup_rest {d : Nat → F} {U xs V : List Nat} {k : Nat} (h : Takes d U k xs V) (hn : U.Nodup) : V.Nodup := (h.split.nodup_iff.1 hn).of_append_right

theorem Cores.unique {d1 d2 : Nat → F} {k : Nat} {U U' A B V A' B' V' : List Nat} (h : Cores d1 d2 k U A B V) (h' : Cores d1 d2 k U' A' B' V') (hp : U.Perm U') (hn : U.Nodup)
    (t1 : NoTie d1 U) (t2 : NoTie d2 U) : A.Perm A' ∧ B.Perm B' ∧ V.Perm V' := by
  cases h with
  | first g1 g2 o1 o2 hl g3 =>
    have s1 := g1.subs
    have s2 := g2.subs
    cases h' with
    | first k1 k2 p1 p2 hl' k3 =>
      have e1 := g1.unique k1 hp hn t1
      have e2 := g3.unique k3 e1.2 (g1.nodup_rest hn) (t2.mono s1.2)
      exact ⟨e1.1, e2.1, e2.2⟩
    | second k1 k2 p1 p2 hl' k3 =>
      rw [← o1.unique (U := U) p1 (g1.unique k1 hp hn t1).1 (t1.mono s1.1), ← o2.unique (U := U) p2 (g2.unique k2 hp hn t2).1 (t2.mono s2.1), hl] at hl'
      cases hl'
  | second g1 g2 o1 o2 hl g3 =>
    have s1 := g1.subs
    have s2 := g2.subs
    cases h' with
    | first k1 k2 p1 p2 hl' k3 =>
      rw [← o1.unique (U := U) p1 (g1.unique k1 hp hn t1).1 (t1.mono s1.1), ← o2.unique (U := U) p2 (g2.unique k2 hp hn t2).1 (t2.mono s2.1), hl] at hl'
      cases hl'
    | second k1 k2 p1 p2 hl' k3 =>
      have e1 := g2.unique k2 hp hn t2
      have e2 := g3.unique k3 e1.2 (g2.nodup_rest hn) (t1.mono s2.2)
      exact ⟨e2.1, e1.1, e2.2⟩

theorem Cores.swap {d1 d2 : Nat → F} {k : Nat} {U A B V : List Nat} (h : Cores d1 d2 k U A B V) (hx : NoCross d1 d2 U) : Cores d2 d1 k U B A V := by
  cases h with
  | first g1 g2 o1 o2 hl g3 => exact .second g2 g1 o2 o1 (by rw [hx _ (g1.subs.1 o1.1) _ (g2.subs.1 o2.1), hl]; rfl) g3
  | second g1 g2 o1 o2 hl g3 => exact .first g2 g1 o2 o1 (by rw [hx _ (g1.subs.1 o1.1) _ (g2.subs.1 o2.1), hl]; rfl) g3

theorem Rounds.swap {d1 d2 : Nat → F} {k : Nat} {U A B : List Nat} (h : Rounds d1 d2 k U A B) : NoCross d1 d2 U → Rounds d2 d1 k U B A := by
  induction h with
  | done => exact fun _ => .done
  | first hU g1 g2 o1 o2 hl _ ih =>
    intro hx
    have := hx _ (g1.subs.1 o1.1) _ (g2.subs.1 o2.1)
    rw [hl] at this
    exact .second hU g2 g1 o2 o1 (by simpa using this.symm) (ih (hx.mono g1.subs.2))
  | second hU g1 g2 o1 o2 hl _ ih =>
    intro hx
    have := hx _ (g1.subs.1 o1.1) _ (g2.subs.1 o2.1)
    rw [hl] at this
    exact .first hU g2 g1 o2 o1 (by simpa using this.symm) (ih (hx.mono g2.subs.2))

theorem Rounds.unique {d1 d2 : Nat → F} {k : Nat} {U A B : List Nat} (h : Rounds d1 d2 k U A B) : ∀ {U' A' B' : List Nat}, Rounds d1 d2 k U' A' B' → U.Perm U' → U.Nodup →
    NoTie d1 U → NoTie d2 U → A.Perm A' ∧ B.Perm B' := by
  induction h with
  | done =>
    intro U' A' B' h' hp _ _ _
    have := List.nil_perm.1 hp
    subst this
    cases h' with
    | done => exact ⟨.refl _, .refl _⟩
    | first h => exact absurd rfl h
    | second h => exact absurd rfl h
  | @first U xs V ys W A B a b hU g1 g2 o1 o2 hl _ ih =>
    intro U' A' B' h' hp hn t1 t2
    have s1 := g1.subs
    have s2 := g2.subs
    cases h' with
    | done => exact absurd (List.perm_nil.1 hp) hU
    | first _ k1 k2 p1 p2 hl' hr =>
      rw [← hp.length_eq] at k1
      have e1 := g1.unique k1 hp hn t1
      have e2 := ih hr e1.2 (g1.nodup_rest hn) (t1.mono s1.2) (t2.mono s1.2)
      exact ⟨e1.1.append e2.1, e2.2⟩
    | second _ k1 k2 p1 p2 hl' hr =>
      rw [← hp.length_eq] at k1 k2
      rw [← o1.unique (U := U) p1 (g1.unique k1 hp hn t1).1 (t1.mono s1.1), ← o2.unique (U := U) p2 (g2.unique k2 hp hn t2).1 (t2.mono s2.1), hl] at hl'
      cases hl'
  | @second U xs V ys W A B a b hU g1 g2 o1 o2 hl _ ih =>
    intro U' A' B' h' hp hn t1 t2
    have s1 := g1.subs
    have s2 := g2.subs
    cases h' with
    | done => exact absurd (List.perm_nil.1 hp) hU
    | first _ k1 k2 p1 p2 hl' hr =>
      rw [← hp.length_eq] at k1 k2
      rw [← o1.unique (U := U) p1 (g1.unique k1 hp hn t1).1 (t1.mono s1.1), ← o2.unique (U := U) p2 (g2.unique k2 hp hn t2).1 (t2.mono s2.1), hl] at hl'
      cases hl'
    | second _ k1 k2 p1 p2 hl' hr =>
      rw [← hp.length_eq] at k2
      have e1 := g2.unique k2 hp hn t2
      have e2 := ih hr e1.2 (g2.nodup_rest hn) (t1.mono s2.2) (t2.mono s2.2)
      exact ⟨e2.1, e1.1.append e2.2⟩

theorem NoTiedPairs.mono {dist : Nat → Nat → F} {X Y : List Nat} (h : NoTiedPairs dist X) (hY : Y ⊆ X) : NoTiedPairs dist Y := fun x hx y hy u hu v hv => h x (hY hx) y (hY hy) u (hY hu) v (hY hv)

theorem OneFarthestPair.mono {S : Nat} {dist : Nat → Nat → F} {X Y : List Nat} (h : OneFarthestPair S dist X) (hY : Y ⊆ X) : OneFarthestPair S dist Y :=
  fun Z hn hZ => h Z hn fun _ hz => hY (hZ hz)

theorem Centers.mutual {dist : Nat → Nat → F} {X : List Nat} {a b : Nat} (h : Centers dist X a b) : MutuallyFarthest dist X a b := ⟨h.mem1, h.mem2, h.far1, h.far2⟩

/-- A split is unique, up to the order of the two parts. -/
theorem SplitOf.unique {n S : Nat} {batch : Bool} {dist : Nat → Nat → F} {X X' A B A' B' : List Nat} (h : SplitOf S batch dist X A B) (h' : SplitOf S batch dist X' A' B') (hp : X.Perm X')
    (hn : X.Nodup) (hd : DistLaws n dist) (hX : ∀ x ∈ X, x < n) (hsize : 2 * S ≤ X.length) (ht : NoTiedPairs dist X) (ho : OneFarthestPair S dist X) :
    A.Perm A' ∧ B.Perm B' ∨ A.Perm B' ∧ B.Perm A' := by
  obtain ⟨c1, c2, U, A0, B0, V, A1, B1, h1, h2, h3, h4, h5, h6⟩ := h
  obtain ⟨c1', c2', U', A0', B0', V', A1', B1', h1', h2', h3', h4', h5', h6'⟩ := h'
  have hn' : (c1 :: c2 :: U).Nodup := h2.nodup_iff.1 hn
  have m1 : c1 ∉ c2 :: U := (List.nodup_cons.1 hn').1
  have m2 : c2 ∉ U := (List.nodup_cons.1 (List.nodup_cons.1 hn').2).1
  have hU : U ⊆ X := fun x hx => h2.mem_iff.2 (by simp [hx])
  have hVU : V ⊆ U := fun x hx => h3.perm.mem_iff.2 (by simp [hx])
  have nU : U.Nodup := (List.nodup_cons.1 (List.nodup_cons.1 hn').2).2
  have nV : V.Nodup := (h3.perm.nodup_iff.1 nU).of_append_right.of_append_right
  have t : ∀ c ∈ X, c ∉ U → NoTie (dist c) U := by
    intro c hc hcu x hx y hy g1 g2
    rcases ht c hc x (hU hx) c hc y (hU hy) (fun e => hcu (e ▸ hx)) (fun e => hcu (e ▸ hy)) g1 g2 with ⟨-, e⟩ | ⟨e, -⟩
    · exact e
    · exact absurd (e ▸ hy) hcu
  have t1 := t c1 h1.mem1 (fun h => m1 (by simp [h]))
  have t2 := t c2 h1.mem2 m2
  have tx : NoCross (dist c1) (dist c2) U := by
    intro x hx y hy
    have e1 : c1 ≠ x := fun e => m1 (by simp [e, hx])
    have e2 : c2 ≠ y := fun e => m2 (e ▸ hy)
    have e3 : ¬ SamePair c1 x c2 y := by
      rintro (⟨e, -⟩ | ⟨e, -⟩)
      · exact m1 (by simp [e])
      · exact m1 (by simp [e, hy])
    have e4 := ht c1 h1.mem1 x (hU hx) c2 h1.mem2 y (hU hy) e1 e2
    have e5 := hd.order.total _ _ (hd.num c1 x (hX _ h1.mem1) (hX _ (hU hx))) (hd.num c2 y (hX _ h1.mem2) (hX _ (hU hy)))
    cases g1 : FloatOps.le (dist c1 x) (dist c2 y) <;> cases g2 : FloatOps.le (dist c2 y) (dist c1 x)
    · rw [g1, g2] at e5; simp at e5
    · rfl
    · rfl
    · exact absurd (e4 g1 g2) e3
  have hpp : (c1 :: c2 :: U).Perm (c1' :: c2' :: U') := h2.symm.trans (hp.trans h2')
  rcases ho X hn (fun _ h => h) hsize c1 c2 c1' c2' h1.mutual (h1'.congr hp.symm).mutual with ⟨rfl, rfl⟩ | ⟨rfl, rfl⟩
  · have hUU : U.Perm U' := (List.perm_cons _).1 ((List.perm_cons _).1 hpp)
    obtain ⟨e1, e2, e3⟩ := h3.unique h3' hUU nU t1 t2
    obtain ⟨e4, e5⟩ := h4.unique h4' e3 nV (t1.mono hVU) (t2.mono hVU)
    exact .inl ⟨h5.trans (((e1.append e4).cons _).trans h5'.symm), h6.trans (((e2.append e5).cons _).trans h6'.symm)⟩
  · have hUU : U.Perm U' := (List.perm_cons _).1 ((List.perm_cons _).1 (hpp.trans (List.Perm.swap _ _ _)))
    obtain ⟨e1, e2, e3⟩ := (h3.swap tx).unique h3' hUU nU t2 t1
    obtain ⟨e4, e5⟩ := (h4.swap (tx.mono hVU)).unique h4' e3 nV (t2.mono hVU) (t1.mono hVU)
    exact .inr ⟨h5.trans (((e2.append e5).cons _).trans h6'.symm), h6.trans (((e1.append e4).cons _).trans h5'.symm)⟩

/-- Each cluster of one list is one of the other, up to the order of its points. -/
def Within (ls ls' : List (List Nat)) : Prop := ∀ L ∈ ls, ∃ L' ∈ ls', L.Perm L'

theorem Within.append {ls rs ls' rs' : List (List Nat)} (h1 : Within ls ls') (h2 : Within rs rs') : Within (rs ++ ls) (rs' ++ ls') := by
  intro L hL
  rcases List.mem_append.1 hL with h | h
  · obtain ⟨L', h, hp⟩ := h2 L h; exact ⟨L', by simp [h], hp⟩
  · obtain ⟨L', h, hp⟩ := h1 L h; exact ⟨L', by simp [h], hp⟩

theorem Within.append' {ls rs ls' rs' : List (List Nat)} (h1 : Within ls rs') (h2 : Within rs ls') : Within (rs ++ ls) (rs' ++ ls') := by
  intro L hL
  rcases List.mem_append.1 hL with h | h
  · obtain ⟨L', h, hp⟩ := h2 L h; exact ⟨L', by simp [h], hp⟩
  · obtain ⟨L', h, hp⟩ := h1 L h; exact ⟨L', by simp [h], hp⟩

/-- The clusters of the algorithm are unique, up to their order. -/
theorem HiTree.unique {n S : Nat} {batch : Bool} {dist : Nat → Nat → F} (hd : DistLaws n dist) {X : List Nat} {ls : List (List Nat)} (h : HiTree S batch dist X ls) :
    ∀ {X' : List Nat} {ls' : List (List Nat)}, HiTree S batch dist X' ls' → X.Perm X' → X.Nodup → (∀ x ∈ X, x < n) → NoTiedPairs dist X → OneFarthestPair S dist X → 0 < S → Within ls ls' := by
  induction h with
  | none => exact fun _ _ _ _ _ _ _ => by simp [Within]
  | @leaf X L h1 h2 h3 =>
    intro X' ls' h' hp hn hX ht ho hS
    cases h' with
    | none => exact absurd (List.perm_nil.1 hp) h1
    | @leaf _ L' k1 k2 k3 => 
      intro M hM
      rw [List.mem_singleton] at hM
      subst hM
      exact ⟨L', by simp, h3.trans (hp.trans k3.symm)⟩
    | node k1 _ _ _ => rw [← hp.length_eq] at k1; omega
  | @node X A B ls rs h1 h2 _ _ ih1 ih2 =>
    intro X' ls' h' hp hn hX ht ho hS
    have hA : A ⊆ X := fun x hx => h2.perm.mem_iff.2 (by simp [hx])
    have hB : B ⊆ X := fun x hx => h2.perm.mem_iff.2 (by simp [hx])
    have nAB := h2.perm.nodup_iff.1 hn
    cases h' with
    | none => have := hp.length_eq; simp at this; subst this; simp at h1; omega
    | leaf k1 k2 k3 => rw [← hp.length_eq] at k2; omega
    | node k1 k2 k3 k4 =>
      rcases h2.unique k2 hp hn hd hX h1 ht ho with ⟨e1, e2⟩ | ⟨e1, e2⟩
      · exact (ih1 k3 e1 nAB.of_append_left (fun x hx => hX x (hA hx)) (ht.mono hA) (ho.mono hA) hS).append
          (ih2 k4 e2 nAB.of_append_right (fun x hx => hX x (hB hx)) (ht.mono hB) (ho.mono hB) hS)
      · exact (ih1 k4 e1 nAB.of_append_left (fun x hx => hX x (hA hx)) (ht.mono hA) (ho.mono hA) hS).append'
          (ih2 k3 e2 nAB.of_append_right (fun x hx => hX x (hB hx)) (ht.mono hB) (ho.mono hB) hS)

/-! ### Points on a line -/

theorem exists_three {Y : List Nat} (hn : Y.Nodup) (h : 3 ≤ Y.length) : ∃ x ∈ Y, ∃ y ∈ Y, ∃ z ∈ Y, x ≠ y ∧ x ≠ z ∧ y ≠ z := by
  match Y, h with
  | x :: y :: z :: l, _ =>
    simp only [List.nodup_cons, List.mem_cons, not_or] at hn
    exact ⟨x, by simp, y, by simp, z, by simp, hn.1.1, hn.1.2.1, hn.2.1.1⟩

theorem MutuallyFarthest.line {dist : Nat → Nat → F} {X Y : List Nat} {pos : Nat → Int} (hl : OnLine dist X pos) (hY : Y ⊆ X) {a b : Nat} (h : MutuallyFarthest dist Y a b) {x y : Nat} (hx : x ∈ Y)
    (hy : y ∈ Y) : (pos x - pos y).natAbs ≤ (pos a - pos b).natAbs := by
  have l : ∀ z ∈ Y, (pos a - pos z).natAbs ≤ (pos a - pos b).natAbs ∧ (pos b - pos z).natAbs ≤ (pos a - pos b).natAbs := fun z hz =>
    ⟨(hl a (hY h.mem1) z (hY hz) a (hY h.mem1) b (hY h.mem2)).1 (h.far1 z hz), (hl b (hY h.mem2) z (hY hz) a (hY h.mem1) b (hY h.mem2)).1 (h.far2 z hz)⟩
  have := l x hx
  have := l y hy
  omega

/-- On a line the points that are farthest from each other are the outermost ones. -/
theorem OnLine.oneFarthest {S : Nat} (hS : 2 ≤ S) {dist : Nat → Nat → F} {X : List Nat} {pos : Nat → Int} (hl : OnLine dist X pos) (ht : NoTiedPairs dist X) : OneFarthestPair S dist X := by
  intro Y hn hY hsize a b c d h1 h2
  have key : ∀ {a b : Nat}, MutuallyFarthest dist Y a b → a ≠ b := by
    rintro a b h rfl
    obtain ⟨x, hx, y, hy, z, hz, e1, e2, e3⟩ := exists_three hn (by omega)
    have l1 := h.line hl hY hx hy
    have l2 := h.line hl hY hx hz
    rcases ht x (hY hx) y (hY hy) x (hY hx) z (hY hz) e1 e2 ((hl x (hY hx) y (hY hy) x (hY hx) z (hY hz)).2 (by omega)) ((hl x (hY hx) z (hY hz) x (hY hx) y (hY hy)).2 (by omega)) with ⟨-, e⟩ | ⟨e, -⟩
    · exact e3 e
    · exact e2 e
  exact ht a (hY h1.mem1) b (hY h1.mem2) c (hY h2.mem1) d (hY h2.mem2) (key h1) (key h2)
    ((hl a (hY h1.mem1) b (hY h1.mem2) c (hY h2.mem1) d (hY h2.mem2)).2 (h2.line hl hY h1.mem1 h1.mem2))
    ((hl c (hY h2.mem1) d (hY h2.mem2) a (hY h1.mem1) b (hY h1.mem2)).2 (h1.line hl hY h2.mem1 h2.mem2))

/-! ### The same cluster under other names -/

theorem RenamedCluster.trees {n S : Nat} {batch : Bool} {dist : Nat → Nat → F} {dist' : Nat → Nat → G} (hd : DistLaws n dist) {X X' : List Nat} {ι : Nat → Nat} (hs : RenamedCluster dist X dist' X' ι)
    {ls ls' : List (List Nat)} (h : HiTree S batch dist X ls) (h' : HiTree S batch dist' X' ls') (hn : X.Nodup) (hn' : X'.Nodup) (hX : ∀ x ∈ X, x < n) (ht : NoTiedPairs dist X)
    (ho : OneFarthestPair S dist X) (hS : 0 < S) {u v : Nat} (hu : u ∈ X) (hv : v ∈ X) : (∃ L ∈ ls, u ∈ L ∧ v ∈ L) ↔ ∃ L ∈ ls', ι u ∈ L ∧ ι v ∈ L := by
  have hinj : ∀ x ∈ X, ∀ y ∈ X, ι x = ι y → x = y := by
    have : (X.map ι).Nodup := hs.points.nodup_iff.1 hn'
    exact fun x hx y hy e => List.inj_on_of_nodup_map this hx hy e
  obtain ⟨κ, hκ⟩ : ∃ κ : Nat → Nat, ∀ x ∈ X, κ (ι x) = x := by
    classical
    refine ⟨fun y => if h : ∃ x ∈ X, ι x = y then h.choose else 0, fun x hx => ?_⟩
    have he : ∃ z ∈ X, ι z = ι x := ⟨x, hx, rfl⟩
    show (if h : ∃ z ∈ X, ι z = ι x then h.choose else 0) = x
    rw [dif_pos he]
    exact hinj _ he.choose_spec.1 _ hx he.choose_spec.2
  have hback : ∀ y ∈ X', ∃ x ∈ X, y = ι x := fun y hy => by
    obtain ⟨x, hx, e⟩ := List.mem_map.1 (hs.points.mem_iff.1 hy)
    exact ⟨x, hx, e.symm⟩
  have ha : CompareAlike dist dist' X' κ := by
    intro x hx' y hy' a ha' b hb'
    obtain ⟨x, hx, rfl⟩ := hback x hx'
    obtain ⟨y, hy, rfl⟩ := hback y hy'
    obtain ⟨a, ha, rfl⟩ := hback a ha'
    obtain ⟨b, hb, rfl⟩ := hback b hb'
    rw [hκ x hx, hκ y hy, hκ a ha, hκ b hb, hs.compare x hx y hy a ha b hb]
  have hpX : X.Perm (X'.map κ) := by
    have e : (X.map ι).map κ = X := by
      rw [List.map_map]
      exact (List.map_congr_left (g := id) fun x hx => hκ x hx).trans (List.map_id X)
    have := (hs.points.map κ).symm
    rwa [e] at this
  have h2 := h'.map ha (fun x hx' y hy' e => by
    obtain ⟨x, hx, rfl⟩ := hback x hx'
    obtain ⟨y, hy, rfl⟩ := hback y hy'
    rw [hκ x hx, hκ y hy] at e
    rw [e])
  have w1 := h.unique hd h2 hpX hn hX ht ho hS
  have hsub : X'.map κ ⊆ X := fun x hx => hpX.mem_iff.2 hx
  have w2 := h2.unique hd h hpX.symm (hpX.nodup_iff.1 hn) (fun x hx => hX x (hsub hx)) (ht.mono hsub) (ho.mono hsub) hS
  constructor
  · rintro ⟨L, hL, g1, g2⟩
    obtain ⟨M, hM, hp⟩ := w1 L hL
    obtain ⟨L', hL', rfl⟩ := List.mem_map.1 hM
    refine ⟨L', hL', ?_, ?_⟩
    · obtain ⟨y, hy, e⟩ := List.mem_map.1 (hp.mem_iff.1 g1)
      obtain ⟨x, hx, rfl⟩ := hback y (h'.subset hL' hy)
      rw [hκ x hx] at e
      rwa [← e]
    · obtain ⟨y, hy, e⟩ := List.mem_map.1 (hp.mem_iff.1 g2)
      obtain ⟨x, hx, rfl⟩ := hback y (h'.subset hL' hy)
      rw [hκ x hx] at e
      rwa [← e]
  · rintro ⟨L', hL', g1, g2⟩
    obtain ⟨L, hL, hp⟩ := w2 (L'.map κ) (List.mem_map_of_mem hL')
    refine ⟨L, hL, hp.mem_iff.1 ?_, hp.mem_iff.1 ?_⟩
    · have := List.mem_map_of_mem (f := κ) g1
      rwa [hκ u hu] at this
    · have := List.mem_map_of_mem (f := κ) g2
      rwa [hκ v hv] at this

end Scc
