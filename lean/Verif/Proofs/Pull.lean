/-
Digraphs and seeds restricted to a part of the vertices that no arc enters or leaves.
-/
import Verif.Proofs.SeedsUnique
import Verif.Spec.Local

set_option linter.unusedVariables false

namespace Scc

/-- The number in the part of a point. -/
def inPart (m : Nat) (ι : Nat → Nat) (x : Nat) : Option Nat := (List.range m).find? fun i => decide (ι i = x)

/-- The points of a list that are in the part, with their numbers in the part. -/
def pull (m : Nat) (ι : Nat → Nat) (l : List Nat) : List Nat := l.filterMap (inPart m ι)

variable {n m : Nat} {ι : Nat → Nat}

theorem Picks.inj (h : Picks n m ι) {i j : Nat} (hi : i < m) (hj : j < m) (e : ι i = ι j) : i = j := by
  rcases Nat.lt_trichotomy i j with h1 | h1 | h1
  · have := h.mono i j h1 hj; omega
  · exact h1
  · have := h.mono j i h1 hi; omega

theorem Picks.lt_iff (h : Picks n m ι) {i j : Nat} (hi : i < m) (hj : j < m) : ι i < ι j ↔ i < j := by
  rcases Nat.lt_trichotomy i j with h1 | h1 | h1
  · have := h.mono i j h1 hj; omega
  · subst h1; omega
  · have := h.mono j i h1 hi; omega

theorem Picks.inPart_some (h : Picks n m ι) {x i : Nat} : inPart m ι x = some i ↔ i < m ∧ ι i = x := by
  constructor
  · intro hi
    exact ⟨List.mem_range.1 (List.mem_of_find?_eq_some hi), by simpa using List.find?_some hi⟩
  · rintro ⟨hi, rfl⟩
    cases hf : inPart m ι (ι i) with
    | none =>
      have := List.find?_eq_none.1 hf i (List.mem_range.2 hi)
      simp at this
    | some j =>
      have h1 : j < m := List.mem_range.1 (List.mem_of_find?_eq_some hf)
      have h2 : ι j = ι i := by simpa using List.find?_some hf
      rw [h.inj h1 hi h2]

theorem inPart_none {x : Nat} : inPart m ι x = none ↔ ∀ i, i < m → ι i ≠ x := by
  unfold inPart
  simp

theorem Picks.mem_pull (h : Picks n m ι) {l : List Nat} {i : Nat} : i ∈ pull m ι l ↔ i < m ∧ ι i ∈ l := by
  unfold pull
  rw [List.mem_filterMap]
  constructor
  · rintro ⟨x, hx, hi⟩
    obtain ⟨h1, rfl⟩ := h.inPart_some.1 hi
    exact ⟨h1, hx⟩
  · rintro ⟨h1, h2⟩
    exact ⟨_, h2, h.inPart_some.2 ⟨h1, rfl⟩⟩

theorem pull_append (l l' : List Nat) : pull m ι (l ++ l') = pull m ι l ++ pull m ι l' := List.filterMap_append ..

theorem Picks.pull_cons (h : Picks n m ι) {i : Nat} (hi : i < m) (l : List Nat) : pull m ι (ι i :: l) = i :: pull m ι l :=
  List.filterMap_cons_some (h.inPart_some.2 ⟨hi, rfl⟩)

theorem pull_cons_out {x : Nat} (hx : ∀ i, i < m → ι i ≠ x) (l : List Nat) : pull m ι (x :: l) = pull m ι l := List.filterMap_cons_none (inPart_none.2 hx)

theorem Picks.pull_map (h : Picks n m ι) {l : List Nat} (hl : ∀ x ∈ l, x < m) : pull m ι (l.map ι) = l := by
  induction l with
  | nil => rfl
  | cons x l ih =>
    rw [List.map_cons, h.pull_cons (hl x (by simp)), ih fun y hy => hl y (by simp [hy])]

theorem Picks.map_pull (h : Picks n m ι) {l : List Nat} (hl : ∀ x ∈ l, ∃ i, i < m ∧ ι i = x) : (pull m ι l).map ι = l := by
  induction l with
  | nil => rfl
  | cons x l ih =>
    obtain ⟨i, hi, rfl⟩ := hl x (by simp)
    rw [h.pull_cons hi, List.map_cons, ih fun y hy => hl y (by simp [hy])]

theorem Picks.pull_pairwise (h : Picks n m ι) {R R' : Nat → Nat → Prop} (hR : ∀ i j, i < m → j < m → R (ι i) (ι j) → R' i j) {l : List Nat} (hl : l.Pairwise R) : (pull m ι l).Pairwise R' := by
  unfold pull
  rw [List.pairwise_filterMap]
  refine hl.imp fun {x y} hxy i hi j hj => ?_
  obtain ⟨h1, rfl⟩ := h.inPart_some.1 hi
  obtain ⟨h2, rfl⟩ := h.inPart_some.1 hj
  exact hR i j h1 h2 hxy

theorem Picks.pull_nodup (h : Picks n m ι) {l : List Nat} (hl : l.Nodup) : (pull m ι l).Nodup :=
  h.pull_pairwise (R := (· ≠ ·)) (R' := (· ≠ ·)) (fun i j _ _ hne e => hne (by rw [e])) hl

theorem Picks.pull_range (h : Picks n m ι) : pull m ι (List.range n) = List.range m := by
  have hp : (pull m ι (List.range n)).Perm (List.range m) := by
    rw [List.perm_ext_iff_of_nodup (h.pull_nodup List.nodup_range) List.nodup_range]
    intro i
    rw [h.mem_pull, List.mem_range, List.mem_range]
    exact ⟨fun hi => hi.1, fun hi => ⟨hi, h.range i hi⟩⟩
  refine List.Perm.eq_of_pairwise (le := (· < ·)) (fun a b _ _ h1 h2 => by omega) (h.pull_pairwise (R := (· < ·)) (fun i j hi hj hij => (h.lt_iff hi hj).1 hij) List.pairwise_lt_range) List.pairwise_lt_range hp

theorem Picks.pull_perm (h : Picks n m ι) {l : List Nat} (hl : l.Perm (List.range n)) : (pull m ι l).Perm (List.range m) := by
  rw [← h.pull_range]
  exact hl.filterMap _

theorem Picks.pull_filter (h : Picks n m ι) {p q : Nat → Bool} (hpq : ∀ i, i < m → p (ι i) = q i) (l : List Nat) : pull m ι (l.filter p) = (pull m ι l).filter q := by
  induction l with
  | nil => rfl
  | cons x l ih =>
    by_cases hx : ∃ i, i < m ∧ ι i = x
    · obtain ⟨i, hi, rfl⟩ := hx
      rw [h.pull_cons hi, List.filter_cons, List.filter_cons, hpq i hi]
      split
      · rw [h.pull_cons hi, ih]
      · exact ih
    · have hx' : ∀ i, i < m → ι i ≠ x := fun i hi e => hx ⟨i, hi, e⟩
      rw [pull_cons_out hx', List.filter_cons]
      split
      · rw [pull_cons_out hx', ih]
      · exact ih

theorem Picks.pull_split (h : Picks n m ι) {l pre post : List Nat} {i : Nat} (e : pull m ι l = pre ++ i :: post) :
    i < m ∧ ∃ pre₀ post₀, l = pre₀ ++ ι i :: post₀ ∧ pull m ι pre₀ = pre ∧ pull m ι post₀ = post := by
  obtain ⟨l₁, l₂, rfl, h1, h2⟩ := List.filterMap_eq_append_iff.1 e
  obtain ⟨l₃, x, l₄, rfl, h3, h4, h5⟩ := List.filterMap_eq_cons_iff.1 h2
  obtain ⟨hi, rfl⟩ := h.inPart_some.1 h4
  refine ⟨hi, l₁ ++ l₃, l₄, by simp, ?_, h5⟩
  rw [pull_append, show pull m ι l₁ = pre from h1, show pull m ι l₃ = [] from List.filterMap_eq_nil_iff.2 h3, List.append_nil]

/-- The digraph `rows'` is the digraph `rows` on the part, and no arc enters or leaves the part. -/
structure SubRows (n m : Nat) (ι : Nat → Nat) (rows rows' : Nat → List Nat) : Prop where
  row : ∀ i, i < m → rows (ι i) = (rows' i).map ι
  range : ∀ i, i < m → ∀ x ∈ rows' i, x < m
  out : ∀ v, v < n → (∀ i, i < m → ι i ≠ v) → ∀ x ∈ rows v, ∀ i, i < m → ι i ≠ x

section
variable {rows rows' : Nat → List Nat} (hι : Picks n m ι) (h : SubRows n m ι rows rows')
include hι h

theorem SubRows.nil_iff {i : Nat} (hi : i < m) : rows (ι i) = [] ↔ rows' i = [] := by rw [h.row i hi, List.map_eq_nil_iff]

theorem SubRows.mem_row {i j : Nat} (hi : i < m) (hj : j < m) : ι j ∈ rows (ι i) ↔ j ∈ rows' i := by
  rw [h.row i hi, List.mem_map]
  constructor
  · rintro ⟨x, hx, e⟩
    rw [← hι.inj (h.range i hi x hx) hj e]
    exact hx
  · exact fun hx => ⟨j, hx, rfl⟩

theorem SubRows.mem_closed {i j : Nat} (hi : i < m) (hj : j < m) : ι j ∈ closedNbr rows (ι i) ↔ j ∈ closedNbr rows' i := by
  unfold closedNbr
  rw [List.mem_cons, List.mem_cons, h.mem_row hι hi hj]
  exact or_congr_left ⟨fun e => hι.inj hj hi e, fun e => by rw [e]⟩

theorem SubRows.closed_in {i x : Nat} (hi : i < m) (hx : x ∈ closedNbr rows (ι i)) : ∃ j, j < m ∧ ι j = x := by
  rcases List.mem_cons.1 hx with rfl | hx
  · exact ⟨i, hi, rfl⟩
  · rw [h.row i hi] at hx
    obtain ⟨y, hy, rfl⟩ := List.mem_map.1 hx
    exact ⟨y, h.range i hi y hy, rfl⟩

theorem SubRows.closed_out {v j : Nat} (hv : v < n) (ho : ∀ i, i < m → ι i ≠ v) (hj : j < m) : ι j ∉ closedNbr rows v := by
  intro hx
  rcases List.mem_cons.1 hx with e | hx
  · exact ho j hj e
  · exact h.out v hv ho _ hx j hj rfl

/-- The seed whose closed neighbourhood has a point of the part is in the part. -/
theorem SubRows.seed_in {s j : Nat} (hs : s < n) (hj : j < m) (hx : ι j ∈ closedNbr rows s) : ∃ i, i < m ∧ ι i = s := by
  by_contra hc
  exact h.closed_out hι hs (fun i hi e => hc ⟨i, hi, e⟩) hj hx

theorem SubRows.captured {S : List Nat} (hS : ∀ s ∈ S, s < n) {i : Nat} (hi : i < m) : Captured rows S (ι i) ↔ Captured rows' (pull m ι S) i := by
  constructor
  · rintro ⟨s, hs, hx⟩
    obtain ⟨j, hj, rfl⟩ := h.seed_in hι (hS s hs) hi hx
    exact ⟨j, hι.mem_pull.2 ⟨hj, hs⟩, (h.mem_closed hι hj hi).1 hx⟩
  · rintro ⟨j, hj, hx⟩
    obtain ⟨hj, hs⟩ := hι.mem_pull.1 hj
    exact ⟨_, hs, (h.mem_closed hι hj hi).2 hx⟩

theorem SubRows.conflict {i j : Nat} (hi : i < m) (hj : j < m) : Conflict rows (ι i) (ι j) ↔ Conflict rows' i j := by
  unfold Conflict
  refine and_congr ⟨fun hne e => hne (by rw [e]), fun hne e => hne (hι.inj hi hj e)⟩ ⟨?_, ?_⟩
  · rintro ⟨x, hx, hx'⟩
    obtain ⟨k, hk, rfl⟩ := h.closed_in hι hi hx
    exact ⟨k, (h.mem_closed hι hi hk).1 hx, (h.mem_closed hι hj hk).1 hx'⟩
  · rintro ⟨k, hk, hk'⟩
    have hkm : k < m := by
      rcases List.mem_cons.1 hk with rfl | hk
      · exact hi
      · exact h.range i hi k hk
    exact ⟨ι k, (h.mem_closed hι hi hkm).2 hk, (h.mem_closed hι hj hkm).2 hk'⟩

theorem SubRows.canAdd {S : List Nat} (hS : ∀ s ∈ S, s < n) {i : Nat} (hi : i < m) : CanAdd rows S (ι i) ↔ CanAdd rows' (pull m ι S) i := by
  unfold CanAdd
  rw [Ne, h.nil_iff hι hi]
  refine and_congr_right fun _ => ⟨fun hc j hj k hk hk' => ?_, fun hc s hs x hx hx' => ?_⟩
  · obtain ⟨hj, hs⟩ := hι.mem_pull.1 hj
    have hkm : k < m := by
      rcases List.mem_cons.1 hk with rfl | hk
      · exact hi
      · exact h.range i hi k hk
    exact hc _ hs (ι k) ((h.mem_closed hι hi hkm).2 hk) ((h.mem_closed hι hj hkm).2 hk')
  · obtain ⟨k, hk, rfl⟩ := h.closed_in hι hi hx
    obtain ⟨j, hj, rfl⟩ := h.seed_in hι (hS s hs) hk hx'
    exact hc j (hι.mem_pull.2 ⟨hj, hs⟩) k ((h.mem_closed hι hi hk).1 hx) ((h.mem_closed hι hj hk).1 hx')

/-- Seeds in the part are chosen as if there were no other points. -/
theorem SubRows.greedy {order : List Nat} (ho : ∀ v ∈ order, v < n) : greedySeeds rows' (pull m ι order) = pull m ι (greedySeeds rows order) := by
  induction order using List.reverseRecOn with
  | nil => rfl
  | append_singleton l v ih =>
    have ihl := ih fun x hx => ho x (by simp [hx])
    have hS : ∀ s ∈ greedySeeds rows l, s < n := fun s hs => ho s (by simp [(greedySeeds_sublist rows l).subset hs])
    rw [pull_append, greedySeeds_snoc rows]
    by_cases hv : ∃ i, i < m ∧ ι i = v
    · obtain ⟨i, hi, rfl⟩ := hv
      rw [show pull m ι [ι i] = [i] from hι.pull_cons hi [], greedySeeds_snoc, ihl]
      by_cases hc : CanAdd rows (greedySeeds rows l) (ι i)
      · rw [if_pos hc, if_pos ((h.canAdd hι hS hi).1 hc), pull_append, show pull m ι [ι i] = [i] from hι.pull_cons hi []]
      · rw [if_neg hc, if_neg fun hc' => hc ((h.canAdd hι hS hi).2 hc')]
    · have hv' : ∀ i, i < m → ι i ≠ v := fun i hi e => hv ⟨i, hi, e⟩
      rw [show pull m ι [v] = [] from pull_cons_out hv' [], List.append_nil, ihl]
      split
      · rw [pull_append, show pull m ι [v] = [] from pull_cons_out hv' [], List.append_nil]
      · rfl

theorem SubRows.arcs {l : List Nat} (hl : ∀ v ∈ l, v < n) {i : Nat} (hi : i < m) : arcsFrom rows l (ι i) = arcsFrom rows' (pull m ι l) i := by
  unfold arcsFrom
  induction l with
  | nil => rfl
  | cons v l ih =>
    rw [List.map_cons, List.sum_cons, ih fun x hx => hl x (by simp [hx])]
    by_cases hv : ∃ j, j < m ∧ ι j = v
    · obtain ⟨j, hj, rfl⟩ := hv
      rw [hι.pull_cons hj, List.map_cons, List.sum_cons, h.row j hj]
      congr 1
      rw [List.count, List.countP_map, List.count]
      refine List.countP_congr fun x hx => ?_
      simp only [Function.comp, beq_iff_eq]
      exact ⟨fun e => hι.inj (h.range j hj x hx) hi e, fun e => by rw [e]⟩
    · have hv' : ∀ i, i < m → ι i ≠ v := fun i hi e => hv ⟨i, hi, e⟩
      rw [pull_cons_out hv', List.count_eq_zero.2 fun hx => h.out v (hl v (by simp)) hv' _ hx i hi rfl, Nat.zero_add]

theorem SubRows.conflicts {l : List Nat} (hl : ∀ v ∈ l, v < n) {i : Nat} (hi : i < m) : conflictsFrom rows l (ι i) = conflictsFrom rows' (pull m ι l) i := by
  unfold conflictsFrom
  induction l with
  | nil => rfl
  | cons v l ih =>
    have ihl := ih fun x hx => hl x (by simp [hx])
    by_cases hv : ∃ j, j < m ∧ ι j = v
    · obtain ⟨j, hj, rfl⟩ := hv
      rw [hι.pull_cons hj, List.countP_cons, List.countP_cons, ihl]
      congr 1
      have : (rows (ι j) ≠ [] ∧ Conflict rows (ι j) (ι i)) ↔ (rows' j ≠ [] ∧ Conflict rows' j i) := by rw [Ne, h.nil_iff hι hj, h.conflict hι hj hi]
      simp only [this]
    · have hv' : ∀ i, i < m → ι i ≠ v := fun i hi e => hv ⟨i, hi, e⟩
      rw [pull_cons_out hv', List.countP_cons, ihl, if_neg, Nat.add_zero]
      rw [decide_eq_true_eq]
      rintro ⟨-, -, x, hx, hx'⟩
      obtain ⟨k, hk, rfl⟩ := h.closed_in hι hi hx'
      exact h.closed_out hι (hl v (by simp)) hv' hk hx

/-- The order in which the points of the part are considered is an order for the part. -/
theorem SubRows.order {sm : SeedMethod} {order : List Nat} (hp : order.Perm (List.range n)) (ho : StableOrder sm rows n order) : StableOrder sm rows' m (pull m ι order) := by
  have hlt : ∀ v ∈ order, v < n := fun v hv => by simpa using hp.mem_iff.1 hv
  have hr : ∀ v ∈ List.range n, v < n := by simp
  have hsub : ∀ {pre post : List Nat} {v : Nat}, order = pre ++ v :: post → (∀ x ∈ pre, x < n) ∧ ∀ x ∈ v :: post, x < n := by
    rintro pre post v rfl
    exact ⟨fun x hx => hlt x (by simp [hx]), fun x hx => hlt x (by simp only [List.mem_append]; exact Or.inr hx)⟩
  have hseed : ∀ {pre : List Nat}, (∀ x ∈ pre, x < n) → ∀ s ∈ greedySeeds rows pre, s < n := fun hpre s hs => hpre s ((greedySeeds_sublist rows _).subset hs)
  cases sm with
  | lexical =>
    show pull m ι order = _
    rw [show order = List.range n from ho, hι.pull_range]
  | inwardsOrder =>
    refine hι.pull_pairwise (R := fun a b => _) (fun i j hi hj hij => ?_) ho
    rw [h.arcs hι hr hi, h.arcs hι hr hj, hι.pull_range, hι.lt_iff hi hj] at hij
    exact hij
  | exclusionOrder =>
    refine hι.pull_pairwise (R := fun a b => _) (fun i j hi hj hij => ?_) ho
    rw [h.conflicts hι hr hi, h.conflicts hι hr hj, hι.pull_range, hι.lt_iff hi hj] at hij
    exact hij
  | inwardsUpdating =>
    intro pre i post e free left hfree hrow x hx hfx hrx
    obtain ⟨hi, pre₀, post₀, e₀, h1, h2⟩ := hι.pull_split e
    rw [← h2] at hx
    obtain ⟨hxm, hx₀⟩ := hι.mem_pull.1 hx
    obtain ⟨hpre, hpost⟩ := hsub e₀
    have hgr : greedySeeds rows' pre = pull m ι (greedySeeds rows pre₀) := by rw [← h1, h.greedy hι hpre]
    have hfr : ∀ j, j < m → (¬ Captured rows (greedySeeds rows pre₀) (ι j) ↔ ¬ Captured rows' (greedySeeds rows' pre) j) := fun j hj => by
      rw [hgr, h.captured hι (hseed hpre) hj]
    have hgo := ho pre₀ (ι i) post₀ e₀ ((hfr i hi).2 hfree) (by rw [Ne, h.nil_iff hι hi]; exact hrow) (ι x) hx₀ ((hfr x hxm).2 hfx) (by rw [Ne, h.nil_iff hι hxm]; exact hrx)
    dsimp only at hgo
    have hll : ∀ y ∈ (ι i :: post₀).filter fun x => decide (¬ Captured rows (greedySeeds rows pre₀) x), y < n := fun y hy => hpost y (List.mem_filter.1 hy).1
    rw [h.arcs hι hll hi, h.arcs hι hll hxm, hι.lt_iff hi hxm, hι.pull_filter (q := fun x => decide (free x)) (fun j hj => decide_eq_decide.2 (hfr j hj)), hι.pull_cons hi, h2] at hgo
    exact hgo
  | exclusionUpdating =>
    intro pre i post e can left hcan x hx hcx
    obtain ⟨hi, pre₀, post₀, e₀, h1, h2⟩ := hι.pull_split e
    rw [← h2] at hx
    obtain ⟨hxm, hx₀⟩ := hι.mem_pull.1 hx
    obtain ⟨hpre, hpost⟩ := hsub e₀
    have hgr : greedySeeds rows' pre = pull m ι (greedySeeds rows pre₀) := by rw [← h1, h.greedy hι hpre]
    have hfr : ∀ j, j < m → (CanAdd rows (greedySeeds rows pre₀) (ι j) ↔ CanAdd rows' (greedySeeds rows' pre) j) := fun j hj => by
      rw [hgr, h.canAdd hι (hseed hpre) hj]
    have hgo := ho pre₀ (ι i) post₀ e₀ ((hfr i hi).2 hcan) (ι x) hx₀ ((hfr x hxm).2 hcx)
    dsimp only at hgo
    have hll : ∀ y ∈ (ι i :: post₀).filter fun x => decide (CanAdd rows (greedySeeds rows pre₀) x), y < n := fun y hy => hpost y (List.mem_filter.1 hy).1
    rw [h.conflicts hι hll hi, h.conflicts hι hll hxm, hι.lt_iff hi hxm, hι.pull_filter (q := fun x => decide (can x)) (fun j hj => decide_eq_decide.2 (hfr j hj)), hι.pull_cons hi, h2] at hgo
    exact hgo

end

end Scc
