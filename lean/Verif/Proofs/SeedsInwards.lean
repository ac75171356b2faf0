/-
The inwards methods.
-/
import Verif.Proofs.SeedsSort
import Mathlib.Algebra.BigOperators.Group.Finset.Basic
import Mathlib.Algebra.BigOperators.Group.List.Basic
import Mathlib.Algebra.BigOperators.Group.Finset.Piecewise

set_option linter.unusedSimpArgs false
set_option linter.unusedVariables false

namespace Scc

/-! ### Sums over vertices -/

/-- Sum of `g` over the vertices satisfying `P`. -/
def sumIf (n : Nat) (P : Nat → Prop) [DecidablePred P] (g : Nat → Nat) : Nat := ∑ u ∈ Finset.range n, if P u then g u else 0

theorem sumIf_split {n : Nat} {P Q R : Nat → Prop} [DecidablePred P] [DecidablePred Q] [DecidablePred R] {g : Nat → Nat}
    (h : ∀ u, u < n → g u ≠ 0 → ((P u ↔ Q u ∨ R u) ∧ ¬ (Q u ∧ R u))) : sumIf n P g = sumIf n Q g + sumIf n R g := by
  unfold sumIf
  rw [← Finset.sum_add_distrib]
  refine Finset.sum_congr rfl fun u hu => ?_
  by_cases hg : g u = 0
  · simp [hg]
  · obtain ⟨h1, h2⟩ := h u (by simpa using hu) hg
    by_cases hq : Q u <;> by_cases hr : R u <;> simp_all

theorem sumIf_congr {n : Nat} {P Q : Nat → Prop} [DecidablePred P] [DecidablePred Q] {g : Nat → Nat}
    (h : ∀ u, u < n → g u ≠ 0 → (P u ↔ Q u)) : sumIf n P g = sumIf n Q g := by
  unfold sumIf
  refine Finset.sum_congr rfl fun u hu => ?_
  by_cases hg : g u = 0
  · simp [hg]
  · have := h u (by simpa using hu) hg
    by_cases hq : Q u <;> simp_all

theorem sumIf_list {n : Nat} {l : List Nat} (hn : l.Nodup) (hl : ∀ u ∈ l, u < n) (g : Nat → Nat) : sumIf n (· ∈ l) g = (l.map g).sum := by
  rw [← List.sum_toFinset g hn]
  unfold sumIf
  rw [← Finset.sum_filter]
  refine Finset.sum_congr ?_ fun _ _ => rfl
  ext u
  simp only [Finset.mem_filter, Finset.mem_range, List.mem_toFinset]
  exact ⟨fun h => h.2, fun h => ⟨hl u h, h⟩⟩

theorem arcsFrom_eq_sumIf {n : Nat} {rows : Nat → List Nat} {l : List Nat} (hn : l.Nodup) (hl : ∀ u ∈ l, u < n) (x : Nat) :
    arcsFrom rows l x = sumIf n (· ∈ l) (fun u => (rows u).count x) := by
  rw [sumIf_list hn hl]; rfl

theorem indeg_eq_arcsFrom (rows : Nat → List Nat) (n x : Nat) : indeg rows n x = arcsFrom rows (List.range n) x := by
  unfold indeg allArcs arcsFrom
  rw [List.count_flatMap]; rfl

theorem indeg_eq_sumIf (rows : Nat → List Nat) (n x : Nat) : indeg rows n x = sumIf n (fun _ => True) (fun u => (rows u).count x) := by
  rw [indeg_eq_arcsFrom, arcsFrom_eq_sumIf List.nodup_range (n := n) (by simp)]
  exact sumIf_congr fun u hu _ => by simpa using hu

/-! ### Frozen positions -/

theorem frozen_pos {n p : Nat} {ord pos ord' pos' : Nat → Nat} (h : OrdOK n ord pos) (h' : OrdOK n ord' pos')
    (hfr : ∀ i, i ≤ p → ord' i = ord i) {x : Nat} (hx : x < n) : p < pos' x ↔ p < pos x := by
  constructor
  · intro hp
    by_contra hlt
    have h2 := hfr (pos x) (by omega)
    rw [h.ord_pos x hx] at h2
    have h3 := h'.pos_ord (pos x) (h.pos_lt x hx)
    rw [h2] at h3; omega
  · intro hp
    by_contra hlt
    have h2 := hfr (pos' x) (by omega)
    rw [h'.ord_pos x hx] at h2
    have h3 := h.pos_ord (pos' x) (h'.pos_lt x hx)
    rw [← h2] at h3; omega

section
variable {stb : Bool} {n mx p : Nat} {head tail : Buf Nat} {rows : Nat → List Nat} {S : List Nat} {marks : Buf Bool} {q : Queue} {ord pos f : Nat → Nat}

/-- Vertices whose count is kept up to date: unassigned, with arcs, after position `p`. -/
def Elig (n p : Nat) (rows : Nat → List Nat) (S : List Nat) (pos : Nat → Nat) (x : Nat) : Prop :=
  x < n ∧ ¬ Captured rows S x ∧ p < pos x ∧ rows x ≠ []

instance : DecidablePred (Elig n p rows S pos) := fun x => by unfold Elig; infer_instance

theorem decreaseIfEligible_eq (hc : Csr n head tail rows) (hm : MarksOK n rows S marks) (h : OrdOK n ord pos) {x : Nat} (hx : x < n)
    {q' : Queue} {ord' pos' f' : Nat → Nat} (hq : QOK stb n mx (p + 1) q' ord' pos' f') (hfr : ∀ i, i ≤ p → ord' i = ord i) :
    decreaseIfEligible stb tail marks p x q' = if Elig n p rows S pos x then decreaseV stb p x q' else some q' := by
  unfold decreaseIfEligible
  rw [hm.get x hx]
  simp only [Option.bind_eq_bind, Option.bind_some, decide_eq_true_eq]
  by_cases h1 : Captured rows S x
  · rw [if_pos h1, if_neg (fun he => he.2.1 h1)]; rfl
  · rw [if_neg h1, hq.vidx x hx]
    simp only [Option.bind_some]
    by_cases h2 : p < pos x
    · rw [if_pos ((frozen_pos h hq.ok hfr hx).2 h2), hc.tail_get x (by omega), hc.tail_get (x + 1) (by omega)]
      simp only [Option.bind_some, off]
      by_cases h3 : rows x = []
      · rw [if_neg (by simp [h3]), if_neg (fun he => he.2.2.2 h3)]; rfl
      · rw [if_pos (by have := List.length_pos_iff.2 h3; omega), if_pos ⟨hx, h1, h2, h3⟩]
    · rw [if_neg (fun hh => h2 ((frozen_pos h hq.ok hfr hx).1 hh)), if_neg (fun he => h2 he.2.2.1)]; rfl

/-- Decreasing along the row of `u`. -/
theorem decreaseRow_spec (hc : Csr n head tail rows) (hm : MarksOK n rows S marks) (h : OrdOK n ord pos) {u : Nat} (hu : u < n)
    {q' : Queue} {ord' pos' f' : Nat → Nat} (hq : QOK stb n mx (p + 1) q' ord' pos' f') (hfr : ∀ i, i ≤ p → ord' i = ord i)
    (hcnt : ∀ x, Elig n p rows S pos x → (rows u).count x ≤ f' x) :
    Wp (rowLoop head tail u q' fun x q => decreaseIfEligible stb tail marks p x q) (fun q'' => ∃ ord'' pos'',
      QOK stb n mx (p + 1) q'' ord'' pos'' (fun x => if Elig n p rows S pos x then f' x - (rows u).count x else f' x) ∧ ∀ i, i ≤ p → ord'' i = ord i) := by
  rw [rowLoop_eq hc hu]
  refine (decreaseList_spec (Elig n p rows S pos) hq (rows u) ?_ hcnt ?_).mono ?_
  · intro x hx he
    exact ⟨he.1, (frozen_pos h hq.ok hfr he.1).2 he.2.2.1⟩
  · intro x hx q1 ord1 pos1 f1 hq1 hfr1
    exact decreaseIfEligible_eq hc hm h (hc.range u hu x hx) hq1 (fun i hi => by rw [hfr1 i hi, hfr i hi])
  · rintro q2 ⟨o2, p2, h1, h2⟩
    exact ⟨o2, p2, h1, fun i hi => by rw [h2 i hi, hfr i hi]⟩

/-- The arcs followed by the update after a seed. -/
def seedUpdateArcs (rows : Nat → List Nat) (p : Nat) (pos : Nat → Nat) (l : List Nat) : List Nat :=
  l.flatMap fun u => if p < pos u then rows u else []

theorem updateAfterSeed_spec (hc : Csr n head tail rows) (hm : MarksOK n rows S marks) (hq : QOK stb n mx (p + 1) q ord pos f) {s : Nat} (hs : s < n)
    (hcnt : ∀ x, Elig n p rows S pos x → (seedUpdateArcs rows p pos (rows s)).count x ≤ f x) :
    Wp (updateAfterSeed stb head tail marks p s q) (fun q' => ∃ ord' pos',
      QOK stb n mx (p + 1) q' ord' pos' (fun x => if Elig n p rows S pos x then f x - (seedUpdateArcs rows p pos (rows s)).count x else f x) ∧ ∀ i, i ≤ p → ord' i = ord i) := by
  unfold updateAfterSeed
  rw [rowLoop_eq hc hs]
  refine wp_foldlM (fun pre q' => ∃ ord' pos',
      QOK stb n mx (p + 1) q' ord' pos' (fun x => if Elig n p rows S pos x then f x - (seedUpdateArcs rows p pos pre).count x else f x) ∧ ∀ i, i ≤ p → ord' i = ord i)
    (rows s) q ⟨ord, pos, by simpa [seedUpdateArcs] using hq, fun i _ => rfl⟩ ?_
  rintro pre u post q' hsplit ⟨ord', pos', hq', hfr⟩
  have hu : u < n := hc.range s hs u (by simp [hsplit])
  have happ : seedUpdateArcs rows p pos (pre ++ [u]) = seedUpdateArcs rows p pos pre ++ if p < pos u then rows u else [] := by
    simp [seedUpdateArcs]
  rw [wp_bind, wp_eq (hq'.vidx u hu)]
  by_cases hpu : p < pos u
  · rw [if_pos ((frozen_pos hq.ok hq'.ok hfr hu).2 hpu)]
    have hall : seedUpdateArcs rows p pos (rows s) = seedUpdateArcs rows p pos pre ++ (rows u ++ seedUpdateArcs rows p pos post) := by
      rw [hsplit]; simp [seedUpdateArcs, hpu]
    refine (decreaseRow_spec hc hm hq.ok hu hq' hfr ?_).mono ?_
    · intro x hx
      have := hcnt x hx
      rw [hall, List.count_append, List.count_append] at this
      rw [if_pos hx]; omega
    · rintro q2 ⟨o2, p2, h1, h2⟩
      refine ⟨o2, p2, ?_, h2⟩
      rw [happ, if_pos hpu]
      have : (fun x => if Elig n p rows S pos x then f x - (seedUpdateArcs rows p pos pre ++ rows u).count x else f x) =
          (fun x => if Elig n p rows S pos x then (if Elig n p rows S pos x then f x - (seedUpdateArcs rows p pos pre).count x else f x) - (rows u).count x
            else if Elig n p rows S pos x then f x - (seedUpdateArcs rows p pos pre).count x else f x) := by
        funext x
        by_cases hx : Elig n p rows S pos x
        · simp only [hx, if_true, List.count_append]; omega
        · simp only [hx, if_false]
      rw [this]; exact h1
  · rw [if_neg (fun hh => hpu ((frozen_pos hq.ok hq'.ok hfr hu).1 hh)), wp_pure]
    refine ⟨ord', pos', ?_, hfr⟩
    rw [happ, if_neg hpu, List.append_nil]; exact hq'

/-! ### Counts -/

/-- Counts of the eligible vertices from position `p` on are up to date: arcs from unassigned vertices at positions from `p` on. -/
def CountsOK (n p : Nat) (rows : Nat → List Nat) (S : List Nat) (pos f : Nat → Nat) : Prop :=
  ∀ x, x < n → p ≤ pos x → ¬ Captured rows S x → rows x ≠ [] →
    f x = sumIf n (fun u => p ≤ pos u ∧ ¬ Captured rows S u) (fun u => (rows u).count x)

theorem count_seedUpdateArcs (hn : ∀ v, v < n → (rows v).Nodup) (hr : ∀ v, v < n → ∀ a ∈ rows v, a < n) {v : Nat} (hv : v < n) (x : Nat) :
    (seedUpdateArcs rows p pos (rows v)).count x = sumIf n (fun u => p < pos u ∧ u ∈ rows v) (fun u => (rows u).count x) := by
  unfold seedUpdateArcs
  rw [List.count_flatMap, ← sumIf_list (hn v hv) (hr v hv)]
  unfold sumIf
  refine Finset.sum_congr rfl fun u _ => ?_
  by_cases h1 : u ∈ rows v <;> by_cases h2 : p < pos u <;> simp [h1, h2]

theorem counts_seed (hc : Csr n head tail rows) (hn : ∀ v, v < n → (rows v).Nodup) (hok : OrdOK n ord pos) (hp : p < n)
    (hadd : CanAdd rows S (ord p)) (h : CountsOK n p rows S pos f) :
    ∀ x, Elig n p rows (S ++ [ord p]) pos x →
      f x = (seedUpdateArcs rows p pos (rows (ord p))).count x +
        sumIf n (fun u => p + 1 ≤ pos u ∧ ¬ Captured rows (S ++ [ord p]) u) (fun u => (rows u).count x) := by
  intro x hx
  obtain ⟨h1, h2, h3, h4⟩ := hx
  rw [captured_snoc] at h2
  push Not at h2
  rw [h x h1 (by omega) h2.1 h4, count_seedUpdateArcs hn hc.range (hok.ord_lt p hp)]
  refine sumIf_split fun u hu hg => ?_
  have hcap : Captured rows (S ++ [ord p]) u ↔ Captured rows S u ∨ u ∈ closedNbr rows (ord p) := captured_snoc
  have hxu : x ∈ rows u := by
    by_contra hxu
    exact hg (List.count_eq_zero.2 hxu)
  have huv : u ≠ ord p := by
    rintro rfl
    exact h2.2 (by simp [closedNbr, hxu])
  have hpu : p ≤ pos u ↔ p < pos u := by
    constructor
    · intro h5
      rcases Nat.lt_or_eq_of_le h5 with h6 | h6
      · exact h6
      · exact absurd (by rw [h6, hok.ord_pos u hu]) huv
    · omega
  have hmem : u ∈ closedNbr rows (ord p) ↔ u ∈ rows (ord p) := by simp [closedNbr, huv]
  rw [hcap, hmem, hpu]
  have hdis : u ∈ rows (ord p) → ¬ Captured rows S u := by
    rintro h5 ⟨s, hs, h6⟩
    exact hadd.2 s hs u (by simp [closedNbr, h5]) h6
  by_cases h5 : u ∈ rows (ord p) <;> by_cases h6 : Captured rows S u <;> by_cases h7 : p < pos u <;> simp_all <;> omega

theorem counts_skip (hok : OrdOK n ord pos) (hp : p < n) (h : CountsOK n p rows S pos f) :
    ∀ x, Elig n p rows S pos x →
      f x = (if Captured rows S (ord p) then 0 else (rows (ord p)).count x) +
        sumIf n (fun u => p + 1 ≤ pos u ∧ ¬ Captured rows S u) (fun u => (rows u).count x) := by
  intro x hx
  obtain ⟨h1, h2, h3, h4⟩ := hx
  have : (if Captured rows S (ord p) then 0 else (rows (ord p)).count x) = sumIf n (fun u => u = ord p ∧ ¬ Captured rows S u) (fun u => (rows u).count x) := by
    unfold sumIf
    rw [Finset.sum_eq_single (ord p)]
    · by_cases h5 : Captured rows S (ord p) <;> simp [h5]
    · intro u _ hne; simp [hne]
    · intro hx; exact absurd (Finset.mem_range.2 (hok.ord_lt p hp)) hx
  rw [h x h1 (by omega) h2 h4, this]
  refine sumIf_split fun u hu hg => ?_
  have hpu : p ≤ pos u ↔ u = ord p ∨ p + 1 ≤ pos u := by
    constructor
    · intro h5
      rcases Nat.lt_or_eq_of_le h5 with h6 | h6
      · exact Or.inr h6
      · exact Or.inl (by rw [h6, hok.ord_pos u hu])
    · rintro (rfl | h5)
      · rw [hok.pos_ord p hp]
      · omega
  have hne : ¬ (u = ord p ∧ p + 1 ≤ pos u) := by
    rintro ⟨rfl, h5⟩
    rw [hok.pos_ord p hp] at h5; omega
  by_cases h5 : u = ord p <;> by_cases h6 : Captured rows S u <;> by_cases h7 : p + 1 ≤ pos u <;> simp_all <;> omega

/-- Counts stay correct when the order changes only after position `p`. -/
theorem CountsOK.of_elig {ord' pos' f' : Nat → Nat} (hok : OrdOK n ord pos) (hok' : OrdOK n ord' pos') (hfr : ∀ i, i ≤ p → ord' i = ord i)
    (h : ∀ x, Elig n p rows S pos x → f' x = sumIf n (fun u => p + 1 ≤ pos u ∧ ¬ Captured rows S u) (fun u => (rows u).count x)) :
    CountsOK n (p + 1) rows S pos' f' := by
  intro x h1 h2 h3 h4
  rw [h x ⟨h1, h3, (frozen_pos hok hok' hfr h1).1 h2, h4⟩]
  refine sumIf_congr fun u hu _ => ?_
  have := frozen_pos hok hok' hfr hu
  rw [show p + 1 ≤ pos u ↔ p < pos u from Iff.rfl, show p + 1 ≤ pos' u ↔ p < pos' u from Iff.rfl, this]

/-! ### The order in which vertices are considered -/

/-- `v` comes before `x`: its key is smaller, or equal and, in the stable variant, its index is smaller. -/
def ComesFirst (stb : Bool) (key : Nat → Nat) (v x : Nat) : Prop := key v < key x ∨ key v = key x ∧ (stb = true → v < x)

theorem ComesFirst.congr {stb : Bool} {key key' : Nat → Nat} {v x : Nat} (h : ComesFirst stb key v x) (hv : key' v = key v) (hx : key' x = key x) : ComesFirst stb key' v x := by
  unfold ComesFirst at h ⊢
  rw [hv, hx]; exact h

theorem ComesFirst.le {stb : Bool} {key : Nat → Nat} {v x : Nat} (h : ComesFirst stb key v x) : key v ≤ key x := by
  rcases h with h | h
  · exact h.le
  · exact h.1.le

theorem ComesFirst.strict {key : Nat → Nat} {v x : Nat} (h : ComesFirst true key v x) : key v < key x ∨ key v = key x ∧ v < x := by
  rcases h with h | h
  · exact Or.inl h
  · exact Or.inr ⟨h.1, h.2 rfl⟩

/-- The vertex at position `i` has the smallest count among the free vertices with arcs, at the time it is considered. -/
def DynAt (stb : Bool) (n : Nat) (rows : Nat → List Nat) (ord pos : Nat → Nat) (i : Nat) : Prop :=
  let S := greedySeeds rows ((List.range i).map ord)
  ¬ Captured rows S (ord i) → rows (ord i) ≠ [] → ∀ x, x < n → i < pos x → ¬ Captured rows S x → rows x ≠ [] →
    ComesFirst stb (fun y => sumIf n (fun u => i ≤ pos u ∧ ¬ Captured rows S u) (fun u => (rows u).count y)) (ord i) x

theorem frozen_pos_le {i : Nat} {ord' pos' : Nat → Nat} (h : OrdOK n ord pos) (h' : OrdOK n ord' pos')
    (hfr : ∀ j, j ≤ i → ord' j = ord j) {x : Nat} (hx : x < n) : i ≤ pos' x ↔ i ≤ pos x := by
  cases i with
  | zero => simp
  | succ i => exact frozen_pos h h' (fun j hj => hfr j (by omega)) hx

theorem map_frozen {i : Nat} {ord ord' : Nat → Nat} (hfr : ∀ j, j < i → ord' j = ord j) : (List.range i).map ord' = (List.range i).map ord :=
  List.map_congr_left fun j hj => hfr j (by simpa using hj)

theorem DynAt.congr {i : Nat} {ord' pos' : Nat → Nat} (h : OrdOK n ord pos) (h' : OrdOK n ord' pos')
    (hfr : ∀ j, j ≤ i → ord' j = ord j) (hd : DynAt stb n rows ord pos i) : DynAt stb n rows ord' pos' i := by
  unfold DynAt at hd ⊢
  rw [map_frozen (fun j hj => hfr j (by omega)), hfr i le_rfl]
  intro S h1 h2 x hx h3 h4 h5
  have := hd h1 h2 x hx ((frozen_pos h h' hfr hx).1 h3) h4 h5
  refine this.congr ?_ ?_
  · refine sumIf_congr fun u hu _ => ?_
    rw [frozen_pos_le h h' hfr hu]
  · refine sumIf_congr fun u hu _ => ?_
    rw [frozen_pos_le h h' hfr hu]

theorem split_order {pre post : List Nat} {v : Nat} (hok : OrdOK n ord pos) (hs : (List.range n).map ord = pre ++ v :: post) :
    pre = (List.range pre.length).map ord ∧ v = ord pre.length ∧ pre.length < n ∧ ∀ u, u ∈ post ↔ u < n ∧ pre.length < pos u := by
  have hlen : n = pre.length + (post.length + 1) := by
    have := congrArg List.length hs; simpa using this
  have hget : ∀ j, (pre ++ v :: post)[j]? = if j < n then some (ord j) else none := by
    intro j
    rw [← hs, List.getElem?_map]
    by_cases hj : j < n
    · rw [List.getElem?_range hj, if_pos hj]; rfl
    · rw [if_neg hj, List.getElem?_eq_none (by simpa using hj)]; rfl
  have hpost : ∀ j, post[j]? = if pre.length + 1 + j < n then some (ord (pre.length + 1 + j)) else none := by
    intro j
    rw [← hget, List.getElem?_append_right (by omega), show pre.length + 1 + j - pre.length = j + 1 by omega]
    simp
  refine ⟨?_, ?_, by omega, fun u => ?_⟩
  · apply List.ext_getElem?
    intro j
    by_cases hj : j < pre.length
    · have := hget j
      rw [List.getElem?_append_left hj, if_pos (by omega)] at this
      rw [this, List.getElem?_map, List.getElem?_range hj]; rfl
    · rw [List.getElem?_eq_none (by omega), List.getElem?_eq_none (by simpa using hj)]
  · have := hget pre.length
    rw [List.getElem?_append_right le_rfl, if_pos (by omega)] at this
    simpa using this
  · rw [List.mem_iff_getElem?]
    constructor
    · rintro ⟨j, hj⟩
      rw [hpost] at hj
      split at hj
      · rename_i h1
        simp at hj; subst hj
        exact ⟨hok.ord_lt _ h1, by rw [hok.pos_ord _ h1]; omega⟩
      · simp at hj
    · rintro ⟨h1, h2⟩
      have h3 := hok.pos_lt u h1
      refine ⟨pos u - (pre.length + 1), ?_⟩
      rw [hpost, if_pos (by omega), show pre.length + 1 + (pos u - (pre.length + 1)) = pos u by omega, hok.ord_pos u h1]

/-- Both variants of the dynamic order. -/
def DynArcs (stb : Bool) (rows : Nat → List Nat) (order : List Nat) : Prop :=
  ∀ pre v post, order = pre ++ v :: post →
    let free := fun x => ¬ Captured rows (greedySeeds rows pre) x
    let left := (v :: post).filter fun x => decide (free x)
    free v → rows v ≠ [] → ∀ x ∈ post, free x → rows x ≠ [] → ComesFirst stb (arcsFrom rows left) v x

theorem dynamic_of_dynAt (hok : OrdOK n ord pos) (hd : ∀ i, i < n → DynAt stb n rows ord pos i) : DynArcs stb rows ((List.range n).map ord) := by
  intro pre v post hs
  obtain ⟨h1, h2, h3, h4⟩ := split_order hok hs
  intro free left hv hrv x hx hfx hrx
  have hnd : (pre ++ v :: post).Nodup := by rw [← hs]; exact hok.perm.nodup_iff.2 List.nodup_range
  have hvp : (v :: post).Nodup := (List.nodup_append.1 hnd).2.1
  have hlt : ∀ u ∈ v :: post, u < n := by
    intro u hu
    rcases List.mem_cons.1 hu with rfl | hu
    · rw [h2]; exact hok.ord_lt _ h3
    · exact ((h4 u).1 hu).1
  have hmem : ∀ u, u < n → (u ∈ left ↔ pre.length ≤ pos u ∧ ¬ Captured rows (greedySeeds rows pre) u) := by
    intro u hu
    simp only [left, List.mem_filter, decide_eq_true_eq, List.mem_cons, h4, free]
    have : pre.length ≤ pos u ↔ u = v ∨ u < n ∧ pre.length < pos u := by
      constructor
      · intro h5
        rcases Nat.lt_or_eq_of_le h5 with h6 | h6
        · exact Or.inr ⟨hu, h6⟩
        · left; rw [h2, h6, hok.ord_pos u hu]
      · rintro (rfl | h5)
        · rw [h2, hok.pos_ord _ h3]
        · omega
    rw [this]
  have hsum : ∀ y, arcsFrom rows left y = sumIf n (fun u => pre.length ≤ pos u ∧ ¬ Captured rows (greedySeeds rows pre) u) (fun u => (rows u).count y) := by
    intro y
    rw [arcsFrom_eq_sumIf (hvp.filter _) (fun u hu => hlt u (List.mem_of_mem_filter hu))]
    exact sumIf_congr fun u hu _ => hmem u hu
  have := hd pre.length h3
  unfold DynAt at this
  rw [← h1, ← h2] at this
  exact (this hv hrv x ((h4 x).1 hx).1 ((h4 x).1 hx).2 hfx hrx).congr (hsum _) (hsum _)

theorem sorted_of_rank {key : Nat → Nat} (hok : OrdOK n ord (rank n key)) :
    ((List.range n).map ord).Pairwise (fun a b => key a < key b ∨ key a = key b ∧ a < b) := by
  rw [List.pairwise_map]
  have := @List.pairwise_lt_range n
  refine this.imp_of_mem ?_
  intro i j hi hj hij
  simp only [List.mem_range] at hi hj
  by_contra hx
  push Not at hx
  have h1 := hok.pos_ord i hi
  have h2 := hok.pos_ord j hj
  rcases Nat.lt_or_eq_of_le hx.1 with h3 | h3
  · have := rank_strict (f := key) (hok.ord_lt j hj) (Or.inl h3); omega
  · have h4 := hx.2 h3.symm
    rcases Nat.lt_or_eq_of_le h4 with h5 | h5
    · have := rank_strict (f := key) (hok.ord_lt j hj) (Or.inr ⟨h3, h5⟩); omega
    · rw [h5] at h2; omega

end

/-! ### The inwards methods -/

/-- Invariant of the updating variant that concerns the queue. -/
def UpdInv (stb : Bool) (n p : Nat) (rows : Nat → List Nat) (S : List Nat) (q : Queue) (ord pos : Nat → Nat) : Prop :=
  ∃ mx f, QOK stb n mx p q ord pos f ∧ CountsOK n p rows S pos f ∧ ∀ i, i < p → DynAt stb n rows ord pos i

/-- Order in which the inwards methods consider the vertices. -/
def InwardsOrder (stb updating : Bool) (rows : Nat → List Nat) (n : Nat) (o : List Nat) : Prop :=
  if updating then DynArcs stb rows o else SortedByArcs rows n o

/-- Invariant of the main loop of the inwards methods, after `p` iterations. -/
def InwardsInv (cfg : Cfg) (w : World) (L : Multiset Nat) (n : Nat) (rows : Nat → List Nat) (updating : Bool) (ord0 : Nat → Nat) (p : Nat)
    (st : Buf Bool × SeedResult × Queue) (w' : World) : Prop :=
  ∃ ord pos, OrdOK n ord pos ∧ (∀ i, i < n → st.2.2.sv.get i = some (ord i)) ∧ SeedInv cfg w L rows ((List.range p).map ord) st.2.1 w' ∧
    MarksOK n rows (greedySeeds rows ((List.range p).map ord)) st.1 ∧
    (updating = true → UpdInv cfg.stableSeeds n p rows (greedySeeds rows ((List.range p).map ord)) st.2.2 ord pos) ∧ (updating = false → ord = ord0)

theorem range_snoc_map (ord : Nat → Nat) (p : Nat) : (List.range (p + 1)).map ord = (List.range p).map ord ++ [ord p] := by
  rw [List.range_succ, List.map_append]; rfl

theorem UpdInv.dyn {stb : Bool} {n p : Nat} {rows : Nat → List Nat} {q : Queue} {ord pos : Nat → Nat} (hp : p < n)
    (h : UpdInv stb n p rows (greedySeeds rows ((List.range p).map ord)) q ord pos) : DynAt stb n rows ord pos p := by
  obtain ⟨mx, f, h1, h2, -⟩ := h
  intro hv hr x hx hpx hfx hrx
  have hop := h1.ok.ord_lt p hp
  have hpo := h1.ok.pos_ord p hp
  have hlt := h1.ok.pos_lt x hx
  have hs := h1.sorted (i := p) (j := pos x) le_rfl (by omega) hlt
  have hox := h1.ok.ord_pos x hx
  rw [hox] at hs
  refine ComesFirst.congr (key := f) ?_ (h2 (ord p) hop (by omega) hv hr).symm (h2 x hx (by omega) hfx hrx).symm
  rcases Nat.lt_or_eq_of_le hs with h3 | h3
  · exact Or.inl h3
  · refine Or.inr ⟨h3, fun hst => ?_⟩
    have := h1.tie hst p (pos x) le_rfl hpx hlt (by rw [hox]; exact h3)
    rwa [hox] at this

theorem inwardsStep_spec {cfg : Cfg} {nng : Digraph} {rows : Nat → List Nat} {w w1 : World} {L : Multiset Nat} {ids : List Nat} {updating : Bool} {ord0 : Nat → Nat} {p : Nat}
    {st : Buf Bool × SeedResult × Queue}
    (h : nng.Repr cfg rows) (hnd : updating = true → ∀ v, v < nng.n → (rows v).Nodup) (hids : ∀ i ∈ ids ++ nng.ids, i ∈ L) (hp : p < nng.n)
    (hi : InwardsInv cfg w L nng.n rows updating ord0 p st w1) :
    WpM (inwardsStep cfg nng ids updating st p) w1 (fun c w' => match c with
      | .next st' => InwardsInv cfg w L nng.n rows updating ord0 (p + 1) st' w'
      | .stop r => SeedStop w L (cfg.clabelMax < nng.n) r w') := by
  obtain ⟨marks, sr, q⟩ := st
  obtain ⟨ord, pos, hok, hsv, hseed, hmarks, hupd, hnon⟩ := hi
  dsimp only at hsv hseed hmarks hupd
  have hv := hok.ord_lt p hp
  unfold inwardsStep
  dsimp only
  rw [wpM_bind, wpM_useK]
  refine ⟨hseed.mem_live fun i hi => hids i (List.mem_append_left _ hi), ?_⟩
  rw [wp_eq (hsv p hp), wpM_bind, wpM_useK]
  refine ⟨hseed.mem_live hids, ?_⟩
  rw [wp_eq (checkMarks_spec h.csr hmarks hv)]
  have hsn := range_snoc_map ord p
  by_cases hadd : CanAdd rows (greedySeeds rows ((List.range p).map ord)) (ord p)
  · have hg : greedySeeds rows ((List.range (p + 1)).map ord) = greedySeeds rows ((List.range p).map ord) ++ [ord p] := by
      rw [hsn, greedySeeds_snoc, if_pos hadd]
    rw [if_pos (by simpa using hadd), wpM_bind]
    refine (hseed.add hadd (n := nng.n) (by simpa using hp)).mono ?_
    rintro ⟨ec, sr'⟩ w2 (⟨rfl, b2⟩ | ⟨hne, hse⟩)
    · simp only [ne_eq, not_true, if_false]
      rw [wpM_bind, wpM_useK]
      refine ⟨b2.mem_live hids, ?_⟩
      refine (markNeighbors_spec h.csr hmarks hv).mono fun marks' hm' => ?_
      cases updating with
      | false =>
        simp only [Bool.false_eq_true, if_false]
        rw [wpM_bind, wpM_pure, wpM_pure]
        exact ⟨ord, pos, hok, hsv, by rw [hsn]; exact b2, by rw [hg]; exact hm', by simp, fun _ => hnon rfl⟩
      | true =>
        simp only [if_true]
        have hdyn := (hupd rfl).dyn hp
        obtain ⟨mx, f, h1, h2, h3⟩ := hupd rfl
        rw [wpM_bind, wpM_useK]
        refine ⟨b2.mem_live hids, ?_⟩
        have hcs := counts_seed h.csr (hnd rfl) hok hp hadd h2
        refine (updateAfterSeed_spec h.csr hm' (h1.mono (Nat.le_succ p)) hv (fun x hx => by rw [hcs x hx]; omega)).mono ?_
        rintro q' ⟨ord', pos', hq', hfr⟩
        rw [wpM_pure]
        have hmf : (List.range (p + 1)).map ord' = (List.range (p + 1)).map ord := map_frozen fun j hj => hfr j (by omega)
        refine ⟨ord', pos', hq'.ok, hq'.sv, by rw [hmf, hsn]; exact b2, by rw [hmf, hg]; exact hm', fun _ => ⟨mx, _, hq', ?_, fun i hi => ?_⟩, by simp⟩
        · rw [hmf, hg]
          refine CountsOK.of_elig hok hq'.ok hfr fun x hx => ?_
          rw [if_pos hx, hcs x hx]; omega
        · rcases Nat.lt_succ_iff_lt_or_eq.1 hi with hi | rfl
          · exact (h3 i hi).congr hok hq'.ok (fun j hj => hfr j (by omega))
          · exact hdyn.congr hok hq'.ok hfr
    · dsimp only at hne ⊢
      rw [if_pos hne, wpM_pure]
      exact hse
  · have hg : greedySeeds rows ((List.range (p + 1)).map ord) = greedySeeds rows ((List.range p).map ord) := by
      rw [hsn, greedySeeds_snoc, if_neg hadd]
    rw [if_neg (by simpa using hadd)]
    cases updating with
    | false =>
      simp only [Bool.false_eq_true, if_false]
      rw [wpM_pure]
      exact ⟨ord, pos, hok, hsv, by rw [hsn]; exact hseed.skip hadd, by rw [hg]; exact hmarks, by simp, fun _ => hnon rfl⟩
    | true =>
      simp only [if_true]
      have hdyn := (hupd rfl).dyn hp
      obtain ⟨mx, f, h1, h2, h3⟩ := hupd rfl
      rw [wpM_bind, wpM_useK]
      refine ⟨hseed.mem_live hids, ?_⟩
      have hcs := counts_skip hok hp h2
      have fin : ∀ q' ord' pos' f', QOK cfg.stableSeeds nng.n mx (p + 1) q' ord' pos' f' → (∀ i, i ≤ p → ord' i = ord i) →
          (∀ x, Elig nng.n p rows (greedySeeds rows ((List.range p).map ord)) pos x → f' x = f x - if Captured rows (greedySeeds rows ((List.range p).map ord)) (ord p) then 0 else (rows (ord p)).count x) →
          InwardsInv cfg w L nng.n rows true ord0 (p + 1) (marks, sr, q') w1 := by
        intro q' ord' pos' f' hq' hfr hf'
        have hmf : (List.range (p + 1)).map ord' = (List.range (p + 1)).map ord := map_frozen fun j hj => hfr j (by omega)
        refine ⟨ord', pos', hq'.ok, hq'.sv, by rw [hmf, hsn]; exact hseed.skip hadd, by rw [hmf, hg]; exact hmarks, fun _ => ⟨mx, _, hq', ?_, fun i hi => ?_⟩, by simp⟩
        · rw [hmf, hg]
          refine CountsOK.of_elig hok hq'.ok hfr fun x hx => ?_
          rw [hf' x hx, hcs x hx]; omega
        · rcases Nat.lt_succ_iff_lt_or_eq.1 hi with hi | rfl
          · exact (h3 i hi).congr hok hq'.ok (fun j hj => hfr j (by omega))
          · exact hdyn.congr hok hq'.ok hfr
      unfold updateAfterSkip
      rw [wp_bind, wp_eq (hmarks.get _ hv)]
      by_cases hcap : Captured rows (greedySeeds rows ((List.range p).map ord)) (ord p)
      · rw [if_pos (by simpa using hcap), wp_pure, wpM_pure]
        exact fin q ord pos f (h1.mono (Nat.le_succ p)) (fun i _ => rfl) (fun x hx => by simp [hcap])
      · rw [if_neg (by simpa using hcap)]
        refine (decreaseRow_spec h.csr hmarks hok hv (h1.mono (Nat.le_succ p)) (fun i _ => rfl) (fun x hx => by rw [hcs x hx, if_neg hcap]; omega)).mono ?_
        rintro q' ⟨ord', pos', hq', hfr⟩
        rw [wpM_pure]
        exact fin q' ord' pos' _ hq' hfr (fun x hx => by rw [if_pos hx, if_neg hcap])

theorem findSeedsInwards_spec {cfg : Cfg} {nng : Digraph} {rows : Nat → List Nat} {w : World} (updating : Bool) (cap : Nat)
    (h : nng.Repr cfg rows) (hnd : updating = true → ∀ v, v < nng.n → (rows v).Nodup) (hl : ∀ i ∈ nng.ids, i ∈ w.live) :
    WpM (findSeedsInwards cfg nng updating cap) w (SeedsPost cfg rows nng.n (cfg.clabelMax < nng.n) w (InwardsOrder cfg.stableSeeds updating rows nng.n)) := by
  unfold findSeedsInwards
  rw [wpM_bind]
  refine (sortByInwards_spec updating h hl).mono ?_
  rintro (ec | sort) w0 hs
  · dsimp only
    rw [wpM_pure]
    exact ⟨hs.fails, hs.live, hs.err, hs.cause.imp (fun h => ⟨h.1, h.2.elim⟩) id⟩
  · obtain ⟨s1, s2, s3, ord0, hord0, hsv0, hq0⟩ := hs
    dsimp only
    rw [wpM_bind]
    refine wpM_alloc (fun w1 hn k1 k2 k3 => ?_) (fun i w1 k1 k2 k3 => ?_)
    · rw [wpM_bind]
      rw [noFail_congr s1] at hn
      refine wpM_alloc (fun w2 hn2 l1 l2 l3 => ?_) (fun j w2 l1 l2 l3 => ?_)
      · dsimp only
        rw [wpM_bind]
        refine freeSort_spec w.live (by rw [l2, k2, s2]) fun w3 m1 m2 m3 => ?_
        simp only [freePtr, wpM_bind, wpM_pure]
        exact wpM_fail fun w4 p1 p2 p3 => ⟨by rw [p1, m1, l1, k1, s1], by rw [p2, m2], by rw [p3], Or.inr ⟨rfl, hn⟩⟩
      · dsimp only
        rw [wpM_bind]
        refine freeSort_spec ({j} + w.live) (by rw [l2, k2, s2]; abel) fun w3 m1 m2 m3 => ?_
        simp only [freePtr, wpM_bind, wpM_pure]
        refine wpM_freeId w.live m2 fun w4 p1 p2 p3 => ?_
        exact wpM_fail fun w5 q1 q2 q3 => ⟨by rw [q1, p1, m1, l1, k1, s1], by rw [q2, p2], by rw [q3], Or.inr ⟨rfl, hn⟩⟩
    · rw [wpM_bind]
      refine wpM_alloc (fun w2 hn2 l1 l2 l3 => ?_) (fun j w2 l1 l2 l3 => ?_)
      · dsimp only
        rw [wpM_bind]
        refine freeSort_spec ({i} + w.live) (by rw [l2, k2, s2]; abel) fun w3 m1 m2 m3 => ?_
        simp only [freePtr, wpM_bind, wpM_pure]
        refine wpM_freeId w.live m2 fun w4 p1 p2 p3 => ?_
        exact wpM_fail fun w5 q1 q2 q3 => ⟨by rw [q1, p1, m1, l1, k1, s1], by rw [q2, p2], by rw [q3], Or.inr ⟨rfl, by rwa [noFail_congr (k1.trans s1)] at hn2⟩⟩
      · dsimp only
        rw [wpM_bind]
        have hids : ∀ x ∈ (i :: (ptrIds sort.cnt ++ ptrIds sort.sv ++ ptrIds sort.vidx ++ ptrIds sort.bidx)) ++ nng.ids, x ∈ ({i} + (sort.own + w.live) : Multiset Nat) := by
          intro x hx
          have hpo : ∀ p : Option (Blk Nat), x ∈ ptrIds p → x ∈ ptrOwn p := by
            intro p hp; cases p <;> simpa [ptrIds, ptrOwn] using hp
          simp only [List.cons_append, List.mem_cons, List.mem_append] at hx
          simp only [SortResult.own, Multiset.mem_add, Multiset.mem_singleton]
          rcases hx with hx | (((hx | hx) | hx) | hx) | hx
          · exact Or.inl hx
          · exact Or.inr (Or.inl (Or.inl (hpo _ hx)))
          · exact Or.inr (Or.inl (Or.inr (Or.inl (hpo _ hx))))
          · exact Or.inr (Or.inl (Or.inr (Or.inr (Or.inl (hpo _ hx)))))
          · exact Or.inr (Or.inl (Or.inr (Or.inr (Or.inr (hpo _ hx)))))
          · exact Or.inr (Or.inr (hl x hx))
        refine (wpM_foldBM (fun pre st w' => InwardsInv cfg w ({i} + (sort.own + w.live)) nng.n rows updating ord0 pre.length st w')
          (SeedStop w ({i} + (sort.own + w.live)) (cfg.clabelMax < nng.n)) (List.range nng.n) _ w2 ?_ ?_).mono ?_
        · refine ⟨ord0, _, hord0, hsv0, ⟨by rw [l1, k1, s1], by rw [l2, k2, s2]; rfl, Or.inl (by rw [l3, k3, s3]), ⟨rfl, by simp [greedySeeds], _, rfl, rfl, by simp [greedySeeds]⟩, by simp [greedySeeds]⟩,
            marksOK_init, fun hu => ?_, fun _ => rfl⟩
          obtain ⟨mx, hq⟩ := hq0 hu
          refine ⟨mx, _, hq _, fun x hx _ _ _ => ?_, fun i hi => absurd hi (by simp)⟩
          rw [indeg_eq_sumIf]
          exact sumIf_congr fun u _ _ => by simp [Captured, greedySeeds]
        · rintro pre v post st w3 hsplit hi
          have hv : v = pre.length ∧ pre.length < nng.n := by
            have hlen : nng.n = pre.length + (post.length + 1) := by
              have := congrArg List.length hsplit; simpa using this
            have := congrArg (fun l => l[pre.length]?) hsplit
            simp only [List.getElem?_append_right (le_refl _), Nat.sub_self, List.getElem?_cons_zero] at this
            rw [List.getElem?_range (by omega)] at this
            simp at this; omega
          obtain ⟨rfl, hlt⟩ := hv
          have := inwardsStep_spec (ids := i :: (ptrIds sort.cnt ++ ptrIds sort.sv ++ ptrIds sort.vidx ++ ptrIds sort.bidx)) h hnd hids hlt hi
          refine this.mono ?_
          rintro (s' | r) w' hh
          · simpa using hh
          · exact hh
        · rintro (⟨marks, sr, q⟩ | ⟨ec, sr⟩) w3 hc
          · obtain ⟨ord, pos, hok, hsv, hseed, hmarks, hupd, hnon⟩ := hc
            dsimp only at hseed ⊢
            rw [wpM_bind]
            refine freeSort_spec ({i} + (ptrOwn sr.seeds + w.live)) (by rw [hseed.live]; abel) fun w4 m1 m2 m3 => ?_
            rw [wpM_bind]
            refine wpM_freeId _ m2 fun w5 p1 p2 p3 => ?_
            rw [wpM_pure]
            simp only [List.length_range] at hseed hupd
            refine ⟨(List.range nng.n).map ord, ?_, hok.perm, by rw [p1, m1, hseed.fails], p2, by rw [p3, m3]; exact hseed.err, hseed.holds, hseed.cap⟩
            unfold InwardsOrder
            cases updating with
            | true =>
              simp only [if_true]
              obtain ⟨mx, f, -, -, hd⟩ := hupd rfl
              exact dynamic_of_dynAt hok hd
            | false =>
              simp only [Bool.false_eq_true, if_false]
              rw [hnon rfl]
              have := sorted_of_rank hord0
              unfold SortedByArcs
              simpa only [indeg_eq_arcsFrom] using this
          · obtain ⟨a1, a2, a3⟩ := hc
            dsimp only at a2 ⊢
            rw [wpM_bind]
            refine freeSort_spec ({i} + (ptrOwn sr.seeds + w.live)) (by rw [a2]; abel) fun w4 m1 m2 m3 => ?_
            rw [wpM_bind]
            refine wpM_freeId _ m2 fun w5 p1 p2 p3 => ?_
            rw [wpM_bind]
            refine wpM_freePtr w.live p2 fun w6 q1 q2 q3 => ?_
            rw [wpM_pure]
            exact ⟨by rw [q1, p1, m1, a1], q2, by rw [q3, p3, m3]; exact a3.1, a3.2⟩

end Scc
