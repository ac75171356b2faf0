/-
A run restricted to a group of points that is far from all others is a run for this group.
-/
import Verif.Proofs.Pull
import Verif.Props.Separated
import Verif.Proofs.RunSame

set_option linter.unusedVariables false

namespace Scc

variable {F : Type} {n m : Nat} {ι g : Nat → Nat} {γ : Nat} {le le' : Nat → Nat → Nat → Prop} {within within' : Nat → Nat → F → Prop}

theorem Picks.group (hι : Picks n m ι) (hg : IsGroup n m ι g γ) {i : Nat} (hi : i < m) : g (ι i) = γ := (hg (ι i) (hι.range i hi)).2 ⟨i, hi, rfl⟩

/-- The nearest points of a point of the group are the nearest points in the group. -/
theorem Picks.near (hι : Picks n m ι) (hd : SameNearby m ι le le' within within') (hsep : Separated le n g) (hg : IsGroup n m ι g γ) {set : List Nat} {k i : Nat} {R : Option F} {a : Option (List Nat)}
    (hi : i < m) (ha : Strict n (Nearest le within) set k R (ι i) a) (hk : k ≤ (pull m ι set).length) :
    (∀ l, a = some l → (pull m ι l).map ι = l) ∧ Strict m (Nearest le' within') (pull m ι set) k R i (a.map (pull m ι)) := by
  obtain ⟨h1, h2, h3, h4, h5⟩ := ha
  have hsame : ∀ l, a = some l → (pull m ι l).map ι = l := by
    rintro l rfl
    obtain ⟨g1, g2, g3⟩ := h2.2 l rfl
    refine hι.map_pull fun x hx => ?_
    have hlen : l.length ≤ (set.filter fun x => g x = g (ι i)).length := by
      rw [g1]
      refine hk.trans ?_
      have hsub : (pull m ι set).map ι ⊆ set.filter fun x => g x = g (ι i) := by
        intro x hx
        obtain ⟨j, hj, rfl⟩ := List.mem_map.1 hx
        obtain ⟨hj, hjs⟩ := hι.mem_pull.1 hj
        exact List.mem_filter.2 ⟨hjs, by simp [hι.group hg hi, hι.group hg hj]⟩
      have hnd : ((pull m ι set).map ι).Nodup := (hι.pull_nodup h3).map_on fun x hx y hy e => hι.inj (hι.mem_pull.1 hx).1 (hι.mem_pull.1 hy).1 e
      have := (hnd.subperm hsub).length_le
      rwa [List.length_map] at this
    have hgx := nearest_group hsep h5 h4 h3 g3 g2 (fun x hx _ => h1.2.2 x hx) hlen x hx
    rw [hι.group hg hi] at hgx
    exact (hg x (h4 x (g3 hx))).1 hgx
  refine ⟨hsame, ?_, ⟨fun hR e => ?_, fun l' hl' => ?_⟩, hι.pull_nodup h3, fun x hx => (hι.mem_pull.1 hx).1, hi⟩
  · cases a with
    | none =>
      obtain ⟨r, hr, hfew⟩ := h1
      refine ⟨r, hr, fun l hl1 hl2 hl3 => ?_⟩
      have hlm : ∀ x ∈ l, x < m := fun x hx => (hι.mem_pull.1 (hl2 hx)).1
      have := hfew (l.map ι) (hl1.map_on fun x hx y hy e => hι.inj (hlm x hx) (hlm y hy) e) (fun x hx => by
        obtain ⟨j, hj, rfl⟩ := List.mem_map.1 hx
        exact (hι.mem_pull.1 (hl2 hj)).2) (fun x hx => by
        obtain ⟨j, hj, rfl⟩ := List.mem_map.1 hx
        exact (hd.within i j r hi (hlm j hj)).1 (hl3 j hj))
      rwa [List.length_map] at this
    | some l =>
      obtain ⟨g1, g2, g3⟩ := h1
      refine ⟨fun r hr x hx => ?_, ?_, fun x hx y hy hyn => ?_⟩
      · obtain ⟨hxm, hxl⟩ := hι.mem_pull.1 hx
        exact (hd.within i x r hi hxm).2 (g1 r hr _ hxl)
      · exact hι.pull_pairwise (fun x y hx hy hxy => (hd.le i x y hi hx hy).2 hxy) g2
      · obtain ⟨hxm, hxl⟩ := hι.mem_pull.1 hx
        obtain ⟨hym, hys⟩ := hι.mem_pull.1 hy
        exact (hd.le i x y hi hxm hym).2 (g3 _ hxl _ hys fun h => hyn (hι.mem_pull.2 ⟨hym, h⟩))
  · exact h2.1 hR (Option.map_eq_none_iff.1 e)
  · obtain ⟨l, rfl, rfl⟩ := Option.map_eq_some_iff.1 hl'
    obtain ⟨g1, g2, g3⟩ := h2.2 l rfl
    have := hsame l rfl
    refine ⟨by rw [← g1, ← congrArg List.length this, List.length_map], hι.pull_nodup g2, fun x hx => ?_⟩
    obtain ⟨hxm, hxl⟩ := hι.mem_pull.1 hx
    exact hι.mem_pull.2 ⟨hxm, g3 hxl⟩

theorem Picks.pull_stored (hι : Picks n m ι) (cfg : Cfg) (l : List Nat) : pull m ι (stored cfg l) = stored cfg (pull m ι l) := by
  cases hst : cfg.stableNng with
  | false => rw [stored_off hst, stored_off hst]
  | true =>
    rw [stored_on hst, stored_on hst]
    refine List.Perm.eq_of_pairwise (le := (· ≤ ·)) (fun a b _ _ => Nat.le_antisymm) (hι.pull_pairwise (R := (· ≤ ·)) (fun i j hi hj hij => ?_) (List.pairwise_insertionSort _ _)) (List.pairwise_insertionSort _ _) ?_
    · have := hι.lt_iff hj hi; omega
    · exact ((List.perm_insertionSort _ _).filterMap _).trans (List.perm_insertionSort _ _).symm

theorem Picks.pull_nbrs (hι : Picks n m ι) {i : Nat} (hi : i < m) {l : List Nat} (hl : (pull m ι l).map ι = l) : pull m ι (nbrs (ι i) l) = nbrs i (pull m ι l) := by
  unfold nbrs
  have hm : ι i ∈ l ↔ i ∈ pull m ι l := by rw [hι.mem_pull]; exact ⟨fun h => ⟨hi, h⟩, fun h => h.2⟩
  by_cases h : ι i ∈ l
  · rw [if_pos h, if_pos (hm.1 h)]
    exact hι.pull_filter (fun j hj => decide_eq_decide.2 ⟨fun hne e => hne (by rw [e]), fun hne e => hne (hι.inj hj hi e)⟩) l
  · rw [if_neg h, if_neg fun h' => h (hm.2 h')]
    rw [show l.dropLast = ((pull m ι l).map ι).dropLast by rw [hl], ← List.map_dropLast]
    exact hι.pull_map fun x hx => (hι.mem_pull.1 (List.dropLast_subset _ hx)).1

theorem Picks.groupOf_eq (hι : Picks n m ι) (hg : IsGroup n m ι g γ) {i : Nat} (hi : i < m) : groupOf n g (ι i) = (List.range m).map ι := by
  have h2 : (pull m ι (groupOf n g (ι i))).map ι = groupOf n g (ι i) := hι.map_pull fun x hx => by
    obtain ⟨h1, h2⟩ := List.mem_filter.1 hx
    rw [hι.group hg hi] at h2
    exact (hg x (List.mem_range.1 h1)).1 (by simpa using h2)
  rw [← h2]
  unfold groupOf
  rw [hι.pull_filter (q := fun _ => true) (fun j hj => by simp [hι.group hg hi, hι.group hg hj]), hι.pull_range]
  simp

theorem Picks.groupOf_length (hι : Picks n m ι) (hg : IsGroup n m ι g γ) {i : Nat} (hi : i < m) : (groupOf n g (ι i)).length = m := by
  rw [hι.groupOf_eq hg hi, List.length_map, List.length_range]

theorem SameSettings.seedLimit {o o' : Options F} (h : SameSettings o o') : Scc.seedLimit o' = Scc.seedLimit o := by
  unfold Scc.seedLimit
  rw [h.seedRadius.1, h.seedRadius.2]

/-! ### Types -/

theorem Picks.typeGroup (hι : Picks n m ι) {lab lab' : Nat → Nat} (hl : ∀ i, i < m → lab' i = lab (ι i)) (t : Nat) : pull m ι (Scc.typeGroup n lab t) = Scc.typeGroup m lab' t := by
  unfold Scc.typeGroup
  rw [show pull m ι ((List.range n).filter fun v => lab v = t).reverse = (pull m ι ((List.range n).filter fun v => lab v = t)).reverse from List.filterMap_reverse ..,
    hι.pull_filter (q := fun v => decide (lab' v = t)) (fun i hi => by rw [hl i hi]), hι.pull_range]

theorem Picks.type_large (hι : Picks n m ι) (hg : IsGroup n m ι g γ) {o : Options F} {P : List Nat} {lab c lab' : Nat → Nat} (hl : ∀ i, i < m → lab' i = lab (ι i)) (hbig : GroupsLarge n o P lab c g)
    (hT : 2 ≤ o.numTypes) {i : Nat} (hi : i < m) (hiP : ι i ∈ P) {t : Nat} (ht : t < o.numTypes) : c t ≤ (Scc.typeGroup m lab' t).length := by
  have h1 := (hbig _ hiP).2 hT t ht
  rw [hι.groupOf_eq hg hi, List.countP_map] at h1
  refine h1.trans (le_of_eq ?_)
  unfold Scc.typeGroup
  rw [List.length_reverse, List.countP_eq_length_filter]
  congr 1
  refine List.filter_congr fun x hx => ?_
  simp only [Function.comp]
  rw [hl x (List.mem_range.1 hx)]

theorem Picks.mem_map (hι : Picks n m ι) {i : Nat} (hi : i < m) {l : List Nat} (hl : ∀ x ∈ l, x < m) : ι i ∈ l.map ι ↔ i ∈ l := by
  rw [List.mem_map]
  exact ⟨fun ⟨x, hx, e⟩ => hι.inj (hl x hx) hi e ▸ hx, fun h => ⟨i, h, rfl⟩⟩

theorem Picks.firstOcc (hι : Picks n m ι) {W : List Nat} (hW : ∀ x ∈ W, x < m) : ∀ {s : List Nat}, (∀ x ∈ s, x < m) → Scc.firstOcc (s.map ι) (W.map ι) = (Scc.firstOcc s W).map ι := by
  induction W with
  | nil => intro s _; rfl
  | cons x W ih =>
    intro s hs
    have hx := hW x (by simp)
    have ih' := fun {s : List Nat} hs => ih (fun y hy => hW y (by simp [hy])) (s := s) hs
    rw [List.map_cons, Scc.firstOcc, Scc.firstOcc]
    by_cases h : x ∈ s
    · rw [if_pos h, if_pos ((hι.mem_map hx hs).2 h), ih' hs]
    · rw [if_neg h, if_neg fun h' => h ((hι.mem_map hx hs).1 h'), List.map_cons, ← ih' (s := x :: s) (by
        intro y hy
        rcases List.mem_cons.1 hy with rfl | hy
        · exact hx
        · exact hs y hy), List.map_cons]

theorem Picks.selfRow (hι : Picks n m ι) {i : Nat} (hi : i < m) {l : List Nat} (hl : ∀ x ∈ l, x < m) : Scc.selfRow (ι i) (l.map ι) = (Scc.selfRow i l).map ι := by
  unfold Scc.selfRow
  have h : ι i ∈ l.map ι ∨ l.map ι = [] ↔ i ∈ l ∨ l = [] := or_congr (hι.mem_map hi hl) List.map_eq_nil_iff
  by_cases h' : i ∈ l ∨ l = []
  · rw [if_pos h', if_pos (h.2 h')]
  · rw [if_neg h', if_neg fun h0 => h' (h.1 h0), List.map_append, List.map_dropLast, List.map_singleton]

theorem selfRow_lt {i : Nat} (hi : i < m) {l : List Nat} (hl : ∀ x ∈ l, x < m) : ∀ x ∈ Scc.selfRow i l, x < m := by
  intro x hx
  unfold Scc.selfRow at hx
  split at hx
  · exact hl x hx
  · rcases List.mem_append.1 hx with hx | hx
    · exact hl x (List.dropLast_subset _ hx)
    · rw [List.mem_singleton.1 hx]; exact hi

theorem typePart_lt {lab c : Nat → Nat} {T i : Nat} (hi : i < m) {a : Nat → List Nat} (ha : ∀ t, t < T → 0 < c t → ∀ x ∈ a t, x < m) : ∀ x ∈ typePart lab c T i a, x < m := by
  intro x hx
  unfold typePart at hx
  obtain ⟨t, ht, hx⟩ := List.mem_flatMap.1 hx
  obtain ⟨ht1, ht2⟩ := List.mem_filter.1 ht
  have := ha t (List.mem_range.1 ht1) (by simpa using ht2)
  split at hx
  · exact selfRow_lt hi this x hx
  · exact this x hx

theorem Picks.typePart (hι : Picks n m ι) {lab c lab' c' : Nat → Nat} {T i : Nat} (hi : i < m) (hl : ∀ i, i < m → lab' i = lab (ι i)) (hc : ∀ t, t < T → c' t = c t) {a a' : Nat → List Nat}
    (ha : ∀ t, t < T → 0 < c t → a t = (a' t).map ι ∧ ∀ x ∈ a' t, x < m) : Scc.typePart lab c T (ι i) a = (Scc.typePart lab' c' T i a').map ι := by
  unfold Scc.typePart
  rw [List.map_flatMap]
  have hf : ((List.range T).filter fun t => decide (0 < c' t)) = (List.range T).filter fun t => decide (0 < c t) := List.filter_congr fun t ht => by rw [hc t (List.mem_range.1 ht)]
  rw [hf]
  refine List.flatMap_congr fun t ht => ?_
  obtain ⟨ht1, ht2⟩ := List.mem_filter.1 ht
  obtain ⟨h1, h2⟩ := ha t (List.mem_range.1 ht1) (by simpa using ht2)
  rw [hl i hi, h1]
  split
  · exact hι.selfRow hi h2
  · rfl

theorem sumTo_congr {c c' : Nat → Nat} {T : Nat} (h : ∀ t, t < T → c' t = c t) : sumTo c' T = sumTo c T := by
  unfold sumTo
  rw [List.map_congr_left fun t ht => h t (List.mem_range.1 ht)]

section
variable {S T : Nat} {R : Option F} {lab c lab' c' : Nat → Nat} {i : Nat}

/-- What a point of the group takes for the type constraints is what it takes in the group. -/
theorem Picks.typeTakes (hι : Picks n m ι) (hd : SameNearby m ι le le' within within') (hsep : Separated le n g) (hg : IsGroup n m ι g γ) (hl : ∀ i, i < m → lab' i = lab (ι i)) (hc : ∀ t, t < T → c' t = c t)
    (hi : i < m) (hS : S ≤ m) (hty : ∀ t, t < T → c t ≤ (Scc.typeGroup m lab' t).length) {W : List Nat} (h : TypeTakes (Strict n (Nearest le within)) n S R lab c T (ι i) W) :
    ∃ W', W = W'.map ι ∧ (∀ x ∈ W', x < m) ∧ TypeTakes (Strict m (Nearest le' within')) m S R lab' c' T i W' := by
  obtain ⟨a, h1, h2⟩ := h
  have hlt : ∀ l : List Nat, ∀ x ∈ pull m ι l, x < m := fun l x hx => (hι.mem_pull.1 hx).1
  have ha : ∀ t, t < T → 0 < c t → a t = (pull m ι (a t)).map ι ∧ Strict m (Nearest le' within') (Scc.typeGroup m lab' t) (c t) R i (some (pull m ι (a t))) := by
    intro t ht hct
    have := hι.near hd hsep hg hi (h1 t ht hct).1 (by rw [hι.typeGroup hl]; exact hty t ht)
    rw [hι.typeGroup hl] at this
    exact ⟨(this.1 _ rfl).symm, this.2⟩
  have hpart := hι.typePart (a := a) (a' := fun t => pull m ι (a t)) hi hl hc fun t ht hct => ⟨(ha t ht hct).1, hlt _⟩
  have hplt := typePart_lt (lab := lab') (c := c') (T := T) (a := fun t => pull m ι (a t)) hi fun t _ _ => hlt _
  have hans : ∀ t, t < T → 0 < c' t → Strict m (Nearest le' within') (Scc.typeGroup m lab' t) (c' t) R i (some (pull m ι (a t))) ∧ (pull m ι (a t)).length = c' t := by
    intro t ht hct
    rw [hc t ht] at hct ⊢
    exact ⟨(ha t ht hct).2, ((ha t ht hct).2.2.1.2 _ rfl).1⟩
  rcases h2 with ⟨h2, rfl⟩ | ⟨h2, b, h3, h4, rfl⟩
  · exact ⟨_, hpart, hplt, fun t => pull m ι (a t), hans, Or.inl ⟨by rw [sumTo_congr hc]; exact h2, rfl⟩⟩
  · have hb := hι.near hd hsep hg hi h3 (by rw [hι.pull_range, List.length_range]; exact hS)
    rw [hι.pull_range] at hb
    have hbm := hb.1 _ rfl
    refine ⟨Scc.typePart lab' c' T i (fun t => pull m ι (a t)) ++ ((pull m ι b).filter fun x => x ∉ Scc.typePart lab' c' T i fun t => pull m ι (a t)).take (S - sumTo c' T), ?_, ?_, fun t => pull m ι (a t), hans,
      Or.inr ⟨by rw [sumTo_congr hc]; exact h2, pull m ι b, hb.2, (hb.2.2.1.2 _ rfl).1, rfl⟩⟩
    · rw [hpart, List.map_append, List.map_take, sumTo_congr hc]
      congr 2
      conv_lhs => rw [← hbm]
      rw [List.filter_map]
      congr 1
      refine List.filter_congr fun x hx => ?_
      exact decide_eq_decide.2 (not_congr (hι.mem_map (hlt _ x hx) hplt))
    · intro x hx
      rcases List.mem_append.1 hx with hx | hx
      · exact hplt x hx
      · exact hlt _ x (List.mem_filter.1 (List.take_subset _ _ hx)).1

theorem Picks.fromAnswer (hι : Picks n m ι) (hd : SameNearby m ι le le' within within') (hsep : Separated le n g) (hg : IsGroup n m ι g γ) (hl : ∀ i, i < m → lab' i = lab (ι i)) (hc : ∀ t, t < T → c' t = c t)
    (hi : i < m) (hS : S ≤ m) (hty : ∀ t, t < T → c t ≤ (Scc.typeGroup m lab' t).length) {x : Nat} (h : FromAnswer (Strict n (Nearest le within)) n S R lab c T (ι i) x) :
    ∃ y, y < m ∧ ι y = x ∧ FromAnswer (Strict m (Nearest le' within')) m S R lab' c' T i y := by
  obtain ⟨l, hx, ⟨h1, h2⟩ | ⟨t, ht, h1, h2⟩⟩ := h
  · have hb := hι.near hd hsep hg hi h1 (by rw [hι.pull_range, List.length_range]; exact hS)
    rw [hι.pull_range] at hb
    rw [← hb.1 _ rfl] at hx
    obtain ⟨y, hy, rfl⟩ := List.mem_map.1 hx
    exact ⟨y, (hι.mem_pull.1 hy).1, rfl, pull m ι l, hy, Or.inl ⟨hb.2, (hb.2.2.1.2 _ rfl).1⟩⟩
  · have hb := hι.near hd hsep hg hi h1 (by rw [hι.typeGroup hl]; exact hty t ht)
    rw [hι.typeGroup hl] at hb
    rw [← hb.1 _ rfl] at hx
    obtain ⟨y, hy, rfl⟩ := List.mem_map.1 hx
    refine ⟨y, (hι.mem_pull.1 hy).1, rfl, pull m ι l, hy, Or.inr ⟨t, ht, ?_⟩⟩
    rw [hc t ht]
    exact ⟨hb.2, (hb.2.2.1.2 _ rfl).1⟩

theorem Picks.typeSet (hι : Picks n m ι) (hd : SameNearby m ι le le' within within') (hsep : Separated le n g) (hg : IsGroup n m ι g γ) (hl : ∀ i, i < m → lab' i = lab (ι i)) (hc : ∀ t, t < T → c' t = c t)
    (hi : i < m) (hS : S ≤ m) (hty : ∀ t, t < T → c t ≤ (Scc.typeGroup m lab' t).length) {k : Nat} {W : List Nat} (h : TypeSet (Strict n (Nearest le within)) n S R lab c T k (ι i) W) :
    (pull m ι W).map ι = W ∧ TypeSet (Strict m (Nearest le' within')) m S R lab' c' T k i (pull m ι W) := by
  have hW : (pull m ι W).map ι = W := hι.map_pull fun x hx => by
    by_cases hx' : x = ι i
    · exact ⟨i, hi, hx'.symm⟩
    · obtain ⟨y, hy, e, -⟩ := hι.fromAnswer hd hsep hg hl hc hi hS hty (h.from_answer x hx hx')
      exact ⟨y, hy, e⟩
  refine ⟨hW, hι.pull_nodup h.nodup, ?_, fun x hx => (hι.mem_pull.1 hx).1, fun t ht => ?_, fun x hx hne => ?_⟩
  · rw [← h.len, ← congrArg List.length hW, List.length_map]
  · have := h.types t ht
    rw [hc t ht]
    refine this.trans (le_of_eq ?_)
    conv_lhs => rw [← hW]
    rw [List.countP_map]
    refine List.countP_congr fun x hx => ?_
    simp only [Function.comp, decide_eq_true_eq]
    rw [hl x (hι.mem_pull.1 hx).1]
  · obtain ⟨hxm, hxW⟩ := hι.mem_pull.1 hx
    obtain ⟨y, hy, e, hf⟩ := hι.fromAnswer hd hsep hg hl hc hi hS hty (h.from_answer _ hxW fun e => hne (hι.inj hxm hi e))
    rwa [hι.inj hy hxm e] at hf

theorem Picks.typeInfeasible (hι : Picks n m ι) (hd : SameNearby m ι le le' within within') (hsep : Separated le n g) (hg : IsGroup n m ι g γ) (hl : ∀ i, i < m → lab' i = lab (ι i)) (hc : ∀ t, t < T → c' t = c t)
    (hi : i < m) (hS : S ≤ m) (hty : ∀ t, t < T → c t ≤ (Scc.typeGroup m lab' t).length) (h : TypeInfeasible (Strict n (Nearest le within)) n S R lab c T (ι i)) :
    TypeInfeasible (Strict m (Nearest le' within')) m S R lab' c' T i := by
  rcases h with ⟨h1, h2⟩ | ⟨t, ht, hct, h2⟩
  · have hb := (hι.near hd hsep hg hi h2 (by rw [hι.pull_range, List.length_range]; exact hS)).2
    rw [hι.pull_range] at hb
    exact Or.inl ⟨by rw [sumTo_congr hc]; exact h1, hb⟩
  · have hb := (hι.near hd hsep hg hi h2 (by rw [hι.typeGroup hl]; exact hty t ht)).2
    rw [hι.typeGroup hl] at hb
    refine Or.inr ⟨t, ht, ?_⟩
    rw [hc t ht]
    exact ⟨hct, hb⟩

end

/-- The digraph on the group. -/
theorem Picks.nng {cfg : Cfg} (hι : Picks n m ι) (hd : SameNearby m ι le le' within within') (hsep : Separated le n g) (hg : IsGroup n m ι g γ) {o o' : Options F} (ho : SameSettings o o') {P P' : List Nat}
    {lab c lab' c' : Nat → Nat} (hty : PartTypes m ι o.numTypes lab c lab' c') (hP : ∀ i, i < m → (i ∈ P' ↔ ι i ∈ P)) (hP' : ∀ i ∈ P', i < m) (hbig : GroupsLarge n o P lab c g) {rows : Nat → List Nat}
    (h : NngStored cfg (Strict n (Nearest le within)) n o P lab c rows) : NngStored cfg (Strict m (Nearest le' within')) m o' P' lab' c' (fun v => pull m ι (rows (ι v))) := by
  obtain ⟨rows₀, ⟨hT, ans, h1, h2⟩ | ⟨hT, h1⟩, he⟩ := h
  · have key : ∀ i ∈ P', (∀ l, ans (ι i) = some l → (pull m ι l).map ι = l) ∧ Strict m (Nearest le' within') (List.range m) o.sizeConstraint (Scc.seedLimit o) i ((ans (ι i)).map (pull m ι)) := by
      intro i hi
      have him := hP' i hi
      have hiP := (hP i him).1 hi
      have := hι.near hd hsep hg him (h1.crit _ hiP) (by
        rw [hι.pull_range, List.length_range, ← hι.groupOf_length hg him]
        exact (hbig _ hiP).1)
      rw [hι.pull_range] at this
      exact this
    refine ⟨fun v => pull m ι (rows₀ (ι v)), Or.inl ⟨by rw [ho.types]; exact hT, fun v => if v ∈ P' then (ans (ι v)).map (pull m ι) else none, ⟨fun q hq => ?_, fun v hv => if_neg hv, fun hR q hq => ?_, fun q l hl => ?_⟩, fun v hv => ?_⟩, fun v => ?_⟩
    · rw [if_pos hq, ho.size, ho.seedLimit]
      exact (key q hq).2
    · rw [if_pos hq]
      rw [ho.seedLimit] at hR
      exact fun e => h1.all hR _ ((hP q (hP' q hq)).1 hq) (Option.map_eq_none_iff.1 e)
    · have hq : q ∈ P' := by
        by_contra hc
        rw [if_neg hc] at hl
        cases hl
      rw [if_pos hq] at hl
      rw [ho.size]
      exact (key q hq).2.2.1.2 l hl
    · dsimp only
      rw [h2 _ (hι.range v hv)]
      by_cases hvP : v ∈ P'
      · unfold ansRows
        dsimp only
        rw [if_pos hvP]
        cases ha : ans (ι v) with
        | none => simp [nbrs, pull]
        | some l => exact hι.pull_nbrs hv ((key v hvP).1 l ha)
      · unfold ansRows
        dsimp only
        rw [if_neg hvP, h1.none_of _ fun h => hvP ((hP v hv).2 h)]
        simp [nbrs, pull]
    · dsimp only
      rw [he, hι.pull_stored]
  · obtain ⟨hl, hc⟩ := hty hT
    refine ⟨fun v => pull m ι (rows₀ (ι v)), Or.inr ⟨by rw [ho.types]; exact hT, ?_⟩, fun v => by dsimp only; rw [he, hι.pull_stored]⟩
    rw [ho.types, ho.size, ho.seedLimit]
    have large : ∀ i, i < m → ι i ∈ P → o.sizeConstraint ≤ m ∧ ∀ t, t < o.numTypes → c t ≤ (Scc.typeGroup m lab' t).length := fun i hi hiP =>
      ⟨by rw [← hι.groupOf_length hg hi]; exact (hbig _ hiP).1, fun t ht => hι.type_large hg hl hbig hT hi hiP ht⟩
    have hrow : ∀ i, i < m → pull m ι (rows₀ (ι i)) = [] → rows₀ (ι i) = [] := by
      intro i hi e
      rcases h1.row _ (hι.range i hi) with h0 | ⟨hiP, W, hW, hr⟩
      · exact h0
      · obtain ⟨e1, -⟩ := hι.typeSet hd hsep hg hl hc hi (large i hi hiP).1 (large i hi hiP).2 hW
        have e2 := hι.firstOcc (W := pull m ι W) (fun x hx => (hι.mem_pull.1 hx).1) (s := [i]) (by simpa using hi)
        rw [e1, List.map_singleton, ← hr] at e2
        rw [e2, hι.pull_map fun x hx => (hι.mem_pull.1 (mem_firstOcc.1 hx).1).1] at e
        rw [e2, e]
        rfl
    refine ⟨fun i hi => ?_, fun i hiP' e => ?_, fun i hi hne => ?_⟩
    · rcases h1.row _ (hι.range i hi) with h0 | ⟨hiP, W, hW, hr⟩
      · exact Or.inl (by rw [h0]; rfl)
      · obtain ⟨e1, hW'⟩ := hι.typeSet hd hsep hg hl hc hi (large i hi hiP).1 (large i hi hiP).2 hW
        refine Or.inr ⟨(hP i hi).2 hiP, pull m ι W, hW', ?_⟩
        have e2 := hι.firstOcc (W := pull m ι W) (fun x hx => (hι.mem_pull.1 hx).1) (s := [i]) (by simpa using hi)
        rw [e1, List.map_singleton, ← hr] at e2
        rw [e2, hι.pull_map fun x hx => (hι.mem_pull.1 (mem_firstOcc.1 hx).1).1]
    · have hi := hP' i hiP'
      have hiP := (hP i hi).1 hiP'
      obtain ⟨hR, hin⟩ := h1.infeasible _ hiP (hrow i hi e)
      exact ⟨hR, hι.typeInfeasible hd hsep hg hl hc hi (large i hi hiP).1 (large i hi hiP).2 hin⟩
    · have hne' : rows₀ (ι i) ≠ [] := fun e => hne (by rw [e]; rfl)
      have hiP := ((h1.row _ (hι.range i hi)).resolve_left hne').1
      obtain ⟨W, hW, hr⟩ := h1.takes _ (hι.range i hi) hne'
      obtain ⟨W', rfl, hlt, hW'⟩ := hι.typeTakes hd hsep hg hl hc hi (large i hi hiP).1 (large i hi hiP).2 hW
      refine ⟨W', hW', ?_⟩
      have e2 := hι.firstOcc hlt (s := [i]) (by simpa using hi)
      rw [List.map_singleton, ← hr] at e2
      rw [e2, hι.pull_map fun x hx => hlt x (mem_firstOcc.1 hx).1]

/-- When no digraph can be built for all points, none can be built for the group. -/
theorem Picks.noSeeds (hι : Picks n m ι) (hd : SameNearby m ι le le' within within') (hsep : Separated le n g) (hg : IsGroup n m ι g γ) {o o' : Options F} (ho : SameSettings o o') {P P' : List Nat}
    {lab c lab' c' : Nat → Nat} (hty : PartTypes m ι o.numTypes lab c lab' c') (hP : ∀ i, i < m → (i ∈ P' ↔ ι i ∈ P)) (hP' : ∀ i ∈ P', i < m) (hbig : GroupsLarge n o P lab c g)
    (h : NoSeeds (Strict n (Nearest le within)) n o P lab c) : NoSeeds (Strict m (Nearest le' within')) m o' P' lab' c' := by
  rcases h with ⟨hT, hR, hno⟩ | ⟨hT, ⟨hR, hno⟩ | ⟨t, ht, hfew⟩⟩
  · refine Or.inl ⟨by rw [ho.types]; exact hT, by rw [ho.seedLimit]; exact hR, fun q hq => ?_⟩
    have hqn := hP' q hq
    have hqP := (hP q hqn).1 hq
    have := (hι.near hd hsep hg hqn (hno _ hqP) (by rw [hι.pull_range, List.length_range, ← hι.groupOf_length hg hqn]; exact (hbig _ hqP).1)).2
    rw [hι.pull_range] at this
    rw [ho.size, ho.seedLimit]
    exact this
  · obtain ⟨hl, hc⟩ := hty hT
    refine Or.inr ⟨by rw [ho.types]; exact hT, Or.inl ⟨by rw [ho.seedLimit]; exact hR, fun q hq => ?_⟩⟩
    have hqn := hP' q hq
    have hqP := (hP q hqn).1 hq
    rw [ho.types, ho.size, ho.seedLimit]
    exact hι.typeInfeasible hd hsep hg hl hc hqn (by rw [← hι.groupOf_length hg hqn]; exact (hbig _ hqP).1) (fun t ht => hι.type_large hg hl hbig hT hqn hqP ht) (hno _ hqP)
  · obtain ⟨hl, hc⟩ := hty hT
    refine Or.inr ⟨by rw [ho.types]; exact hT, Or.inr ⟨t, by rw [ho.types]; exact ht, ?_⟩⟩
    rw [hc t ht, ← hι.typeGroup hl]
    exact lt_of_le_of_lt (List.length_filterMap_le _ _) hfew

/-- No arc enters or leaves the group. -/
theorem Picks.subRows {cfg : Cfg} (hι : Picks n m ι) (hsep : Separated le n g) (hg : IsGroup n m ι g γ) {o : Options F} {P : List Nat} {lab c : Nat → Nat} (hS : 2 ≤ o.sizeConstraint)
    (hbig : GroupsLarge n o P lab c g) {rows rows' : Nat → List Nat} (h : NngStored cfg (Strict n (Nearest le within)) n o P lab c rows) (hr : ∀ i, i < m → rows' i = pull m ι (rows (ι i))) :
    SubRows n m ι rows rows' where
  row i hi := by
    rw [hr i hi]
    refine (hι.map_pull fun x hx => ?_).symm
    exact (hg x ((h.facts hS).range _ (hι.range i hi) x hx)).1 (by rw [rows_group hsep hbig h (hι.range i hi) hx, hι.group hg hi])
  range i hi x hx := by
    rw [hr i hi] at hx
    exact (hι.mem_pull.1 hx).1
  out v hv ho x hx i hi e := by
    subst e
    have h1 := rows_group hsep hbig h hv hx
    rw [hι.group hg hi] at h1
    obtain ⟨j, hj, e⟩ := (hg v hv).1 h1.symm
    exact ho j hj e

/-- The cluster of all points that corresponds to cluster `j` of the part. -/
def wholeCluster (ι : Nat → Nat) (seeds seeds' : List Nat) (j : Nat) : Nat := seeds.idxOf (ι (seeds'.getD j 0))

theorem SubRows.seedLab {rows rows' : Nat → List Nat} (hι : Picks n m ι) (h : SubRows n m ι rows rows') {seeds : List Nat} (hs : SeedsOk n rows seeds) {i : Nat} (hi : i < m) :
    Scc.seedLab rows seeds (ι i) = (Scc.seedLab rows' (pull m ι seeds) i).map (wholeCluster ι seeds (pull m ι seeds)) := by
  cases hc : Scc.seedLab rows' (pull m ι seeds) i with
  | none =>
    rw [Option.map_none, seedLab_none]
    intro s hss hx
    obtain ⟨j, hj, rfl⟩ := h.seed_in hι (hs.range s hss) hi hx
    exact seedLab_none.1 hc j (hι.mem_pull.2 ⟨hj, hss⟩) ((h.mem_closed hι hj hi).1 hx)
  | some j =>
    obtain ⟨s, hs1, hs2⟩ := seedLab_some hc
    obtain ⟨hsm, hss⟩ := hι.mem_pull.1 (List.mem_of_getElem? hs1)
    rw [Option.map_some]
    refine hs.seedLab (s := ι s) ?_ ((h.mem_closed hι hsm hi).2 hs2)
    unfold wholeCluster
    rw [List.getD_eq_getElem?_getD, hs1, Option.getD_some]
    rw [List.getElem?_eq_getElem (List.idxOf_lt_length_of_mem hss), List.getElem_idxOf]

theorem wholeCluster_inj (hι : Picks n m ι) {seeds : List Nat} (hnd : seeds.Nodup) {j j' : Nat} (hj : j < (pull m ι seeds).length) (hj' : j' < (pull m ι seeds).length)
    (e : wholeCluster ι seeds (pull m ι seeds) j = wholeCluster ι seeds (pull m ι seeds) j') : j = j' := by
  unfold wholeCluster at e
  rw [List.getD_eq_getElem?_getD, List.getD_eq_getElem?_getD, List.getElem?_eq_getElem hj, List.getElem?_eq_getElem hj', Option.getD_some, Option.getD_some] at e
  obtain ⟨h1, h2⟩ := hι.mem_pull.1 (List.getElem_mem hj)
  obtain ⟨h3, h4⟩ := hι.mem_pull.1 (List.getElem_mem hj')
  have := hι.inj h1 h3 ((List.idxOf_inj h2).1 e)
  exact (List.Nodup.getElem_inj_iff (hι.pull_nodup hnd)).1 this

/-- Labels of all points and of the points of the part that correspond to each other. -/
def PartLabels (m : Nat) (ι τ : Nat → Nat) (L M : Nat → Option Nat) : Prop := ∀ i, i < m → L (ι i) = (M i).map τ

theorem PartLabels.nng {rows rows' : Nat → List Nat} (hι : Picks n m ι) (h : SubRows n m ι rows rows') {τ : Nat → Nat} {L M : Nat → Option Nat} (hL : PartLabels m ι τ L M) :
    PartLabels m ι τ (nngLab rows L) (nngLab rows' M) := by
  intro i hi
  unfold nngLab
  rw [hL i hi]
  cases hM : M i with
  | some c => rfl
  | none =>
    dsimp only [Option.map_none]
    rw [h.row i hi, List.find?_map]
    have hf : (rows' i).find? ((fun a => (L a).isSome) ∘ ι) = (rows' i).find? fun a => (M a).isSome := by
      have hr := h.range i hi
      generalize rows' i = l at hr
      induction l with
      | nil => rfl
      | cons x l ih =>
        rw [List.find?_cons, List.find?_cons, ih fun y hy => hr y (by simp [hy])]
        have : ((fun a => (L a).isSome) ∘ ι) x = (M x).isSome := by
          show (L (ι x)).isSome = _
          rw [hL x (hr x (by simp))]
          simp
        rw [this]
    rw [hf]
    cases hx : (rows' i).find? fun a => (M a).isSome with
    | none => rfl
    | some x => exact hL x (h.range i hi x (List.mem_of_find?_eq_some hx))

theorem Determined.one {cfg : Cfg} {A : Criterion F} (h : Determined cfg (Strict n A)) {set : List Nat} {R : Option F} {q : Nat} {a a' : Option (List Nat)} (ha : Strict n A set 1 R q a)
    (ha' : Strict n A set 1 R q a') : a = a' := by
  have h1 := h _ _ _ _ _ _ ha ha'
  cases a with
  | none =>
    cases a' with
    | none => rfl
    | some l' => cases h1
  | some l =>
    cases a' with
    | none => cases h1
    | some l' =>
      obtain ⟨x, rfl⟩ := List.length_eq_one_iff.1 (ha.2.1.2 l rfl).1
      obtain ⟨y, rfl⟩ := List.length_eq_one_iff.1 (ha'.2.1.2 l' rfl).1
      cases h1 with
      | some h1 =>
        split at h1
        · rw [List.singleton_perm.1 h1]
        · rw [h1]

/-- Assignment by search in the group. -/
theorem PartLabels.search {cfg : Cfg} (hι : Picks n m ι) (hd : SameNearby m ι le le' within within') (hsep : Separated le n g) (hg : IsGroup n m ι g γ) (hdet : Determined cfg (Strict m (Nearest le' within')))
    {τ : Nat → Nat} {L M L1 M1 : Nat → Option Nat} (hL : PartLabels m ι τ L M) {um : UnassignedMethod} {base seeds P P' : List Nat} {R : Option F} (hP : ∀ i, i < m → (i ∈ P' ↔ ι i ∈ P))
    (hb : pull m ι base ≠ []) (hs : pull m ι seeds ≠ []) (h : SearchStage (Strict n (Nearest le within)) n um base seeds R P L L1)
    (h' : SearchStage (Strict m (Nearest le' within')) m um (pull m ι base) (pull m ι seeds) R P' M M1) : PartLabels m ι τ L1 M1 := by
  have key : ∀ {set : List Nat}, pull m ι set ≠ [] →
      (∃ ans, Answers (Strict n (Nearest le within)) set 1 R (P.filter fun v => (L v).isNone) ans ∧ ∀ v, v < n → L1 v = searchLab ans L v) →
      (∃ ans, Answers (Strict m (Nearest le' within')) (pull m ι set) 1 R (P'.filter fun v => (M v).isNone) ans ∧ ∀ v, v < m → M1 v = searchLab ans M v) → PartLabels m ι τ L1 M1 := by
    rintro set hne ⟨ans, a1, a2⟩ ⟨ans', b1, b2⟩ i hi
    rw [a2 _ (hι.range i hi), b2 i hi]
    unfold searchLab
    rw [hL i hi]
    cases hM : M i with
    | some c => rfl
    | none =>
      dsimp only [Option.map_none]
      have hLn : L (ι i) = none := by rw [hL i hi, hM]; rfl
      by_cases hiP : i ∈ P'
      · have hq : ι i ∈ P.filter fun v => (L v).isNone := List.mem_filter.2 ⟨(hP i hi).1 hiP, by simp [hLn]⟩
        have hq' : i ∈ P'.filter fun v => (M v).isNone := List.mem_filter.2 ⟨hiP, by simp [hM]⟩
        obtain ⟨n1, n2⟩ := hι.near hd hsep hg hi (a1.crit _ hq) (List.length_pos_iff.2 hne)
        rw [hdet.one (b1.crit _ hq') n2]
        cases ha : ans (ι i) with
        | none => rfl
        | some l =>
          have hl := n1 l ha
          have hlm : ∀ x ∈ pull m ι l, x < m := fun x hx => (hι.mem_pull.1 hx).1
          rw [Option.map_some]
          generalize pull m ι l = l' at hl hlm
          subst hl
          cases l' with
          | nil => rfl
          | cons x l' => exact hL x (hlm x (by simp))
      · rw [a1.none_of _ fun h => hiP ((hP i hi).2 (List.mem_filter.1 h).1), b1.none_of _ fun h => hiP (List.mem_filter.1 h).1]
        rfl
  cases um with
  | closestAssigned => exact key hb h h'
  | closestSeed => exact key hs h h'
  | ignore => exact fun i hi => by rw [h _ (hι.range i hi), h' i hi, hL i hi]
  | anyNeighbor => exact fun i hi => by rw [h _ (hι.range i hi), h' i hi, hL i hi]
  | unknown => exact fun i hi => by rw [h _ (hι.range i hi), h' i hi, hL i hi]

/-- Labels that correspond to each other, as they are stored. -/
theorem sameInPart_of_labels {cfg : Cfg} (hcfg : cfg.Valid) (hι : Picks n m ι) {τ : Nat → Nat} {L M : Nat → Option Nat} (hL : PartLabels m ι τ L M)
    (hlt : ∀ i, i < m → ∀ c, L (ι i) = some c → c < cfg.clabelMax) (hlt' : ∀ i, i < m → ∀ c, M i = some c → c < cfg.clabelMax) {b b' : Buf Int} (hb : LabelsAre cfg n b L) (hb' : LabelsAre cfg m b' M)
    (hinj : ∀ i j x y, i < m → j < m → M i = some x → M j = some y → τ x = τ y → x = y) : SameInPart cfg m ι b b' := by
  have henc : ∀ {x y : Option Nat}, (∀ c, x = some c → c < cfg.clabelMax) → (∀ c, y = some c → c < cfg.clabelMax) → (encLabel cfg x = encLabel cfg y ↔ x = y) := by
    intro x y hx hy
    cases x with
    | none => rw [show encLabel cfg none = cfg.na from rfl, eq_comm, encLabel_eq_na hcfg hy, eq_comm]
    | some a =>
      cases y with
      | none => exact encLabel_eq_na hcfg hx
      | some b => simp [encLabel]
  refine ⟨fun i hi => ?_, fun i j hi hj => ?_⟩
  · unfold Unassigned
    rw [hb _ (hι.range i hi), hb' i hi, Option.some.injEq, Option.some.injEq, encLabel_eq_na hcfg (hlt i hi), encLabel_eq_na hcfg (hlt' i hi), hL i hi, Option.map_eq_none_iff]
  · rw [hb _ (hι.range i hi), hb' i hi, hb _ (hι.range j hj), hb' j hj, Option.some.injEq, Option.some.injEq, henc (hlt i hi) (hlt j hj), henc (hlt' i hi) (hlt' j hj), hL i hi, hL j hj]
    constructor
    · intro e
      cases hi' : M i with
      | none =>
        cases hj' : M j with
        | none => rfl
        | some y => rw [hi', hj'] at e; cases e
      | some x =>
        cases hj' : M j with
        | none => rw [hi', hj'] at e; cases e
        | some y =>
          rw [hi', hj', Option.map_some, Option.map_some, Option.some.injEq] at e
          rw [hinj i j x y hi hj hi' hj' e]
    · intro e
      rw [e]

/-- A run for the group, next to a run for all points. -/
theorem RunData.part [FloatOps F] {cfg : Cfg} (hcfg : cfg.Valid) (hι : Picks n m ι) (hd : SameNearby m ι le le' within within') (hsep : Separated le n g) (hg : IsGroup n m ι g γ)
    (hone : OneAnswer (Strict m (Nearest le' within'))) {o o' : Options F} (ho : SameSettings o o') (hS : 2 ≤ o.sizeConstraint)
    (hest : ¬ UsesEstimate o.primaryMethod o.primaryRadius ∧ ¬ UsesEstimate o.secondaryMethod o.secondaryRadius) {P P' : List Nat} {lab c lab' c' : Nat → Nat}
    (hty : PartTypes m ι o.numTypes lab c lab' c') (hP : ∀ i, i < m → (i ∈ P' ↔ ι i ∈ P)) (hP' : ∀ i ∈ P', i < m) (hbig : GroupsLarge n o P lab c g) {sm : SeedMethod}
    (hstable : sm = .inwardsUpdating ∨ sm = .exclusionUpdating → cfg.stableSeeds = true) {dist dist' : Nat → Nat → F} {rows rows' : Nat → List Nat} {order order' : List Nat}
    {L2 L3 L M2 M3 M : Nat → Option Nat} {k k' : Nat} {b b' : Buf Int} (h : RunData cfg (Strict n (Nearest le within)) dist n o sm P lab c False rows order L2 L3 L k b)
    (h' : RunData cfg (Strict m (Nearest le' within')) dist' m o' sm P' lab' c' False rows' order' M2 M3 M k' b') : SameInPart cfg m ι b b' := by
  have hdet := hone.determined cfg
  have hS' : 2 ≤ o'.sizeConstraint := by rw [ho.size]; exact hS
  have hsub : SubRows n m ι rows rows' := hι.subRows hsep hg hS hbig h.nng fun i hi =>
    (NngStored.unique_one hone (hι.nng hd hsep hg ho hty hP hP' hbig h.nng) h'.nng i hi).symm
  have hso : ∀ {n : Nat} {rows : Nat → List Nat} {order : List Nat}, BuildOrder cfg sm rows n order → StableOrder sm rows n order := by
    intro n rows order hb
    cases sm with
    | inwardsUpdating => exact hb.2 (hstable (Or.inl rfl))
    | exclusionUpdating => exact hb.2 (hstable (Or.inr rfl))
    | lexical => exact hb.1
    | inwardsOrder => exact hb.1
    | exclusionOrder => exact hb.1
  have hseeds : greedySeeds rows' order' = pull m ι (greedySeeds rows order) := by
    rw [← hsub.greedy hι fun v hv => by simpa using h.perm.mem_iff.1 hv]
    exact stableOrder_unique h'.perm (hι.pull_perm h.perm) (hso h'.method) (hsub.order hι h.perm (hso h.method))
  have hsok := h.seedsOk hS
  have hsne := h'.seeds_ne
  have hst := h.staged
  have hst' := h'.staged
  have hlt' := h'.lt hS'
  have hcount := h'.count
  rw [hseeds] at hsne hst' hcount
  generalize hσ : greedySeeds rows order = seeds at *
  have hlab : PartLabels m ι (wholeCluster ι seeds (pull m ι seeds)) (seedLab rows seeds) (seedLab rows' (pull m ι seeds)) := fun i hi => hsub.seedLab hι hsok hi
  have hbase : pull m ι (labelled n (seedLab rows seeds)) = labelled m (seedLab rows' (pull m ι seeds)) := by
    unfold labelled
    rw [hι.pull_filter (q := fun v => (seedLab rows' (pull m ι seeds) v).isSome) (fun i hi => by rw [hlab i hi]; simp), hι.pull_range]
  have hbne : pull m ι (labelled n (seedLab rows seeds)) ≠ [] := by
    obtain ⟨s, hs⟩ := List.exists_mem_of_ne_nil _ hsne
    obtain ⟨hsm, hss⟩ := hι.mem_pull.1 hs
    obtain ⟨j, hj⟩ := List.mem_iff_getElem?.1 hss
    refine List.ne_nil_of_mem (a := s) (hι.mem_pull.2 ⟨hsm, mem_labelled.2 ⟨hι.range s hsm, ?_⟩⟩)
    rw [hsok.seedLab hj (by simp [closedNbr])]
    rfl
  have hrad : ∀ {um : UnassignedMethod} {rm : RadiusMethod} (r e e' : F), ¬ UsesEstimate um rm → stageRadius o' um rm r e = stageRadius o um rm r e' := by
    intro um rm r e e' hu
    unfold stageRadius
    cases um <;> cases rm <;> simp [ho.seedLimit] <;> simp [UsesEstimate] at hu
  rw [ho.types, ho.primary.1, ho.primary.2.1, ho.primary.2.2, ho.secondary.1, ho.secondary.2.1, ho.secondary.2.2,
    hrad _ _ (seedEstimate dist rows seeds) hest.1, hrad _ _ (seedEstimate dist rows seeds) hest.2] at hst'
  obtain ⟨n1, f1, s1⟩ := hst
  obtain ⟨n2, f2, s2⟩ := hst'
  rw [← hbase] at f2 s2
  have hL2 : PartLabels m ι (wholeCluster ι seeds (pull m ι seeds)) L2 M2 := by
    intro i hi
    rw [n1 _ (hι.range i hi), n2 i hi]
    by_cases hu : UsesNng (decide (o.numTypes < 2)) o.primaryMethod
    · rw [if_pos hu, if_pos hu]
      exact hlab.nng hι hsub i hi
    · rw [if_neg hu, if_neg hu]
      exact hlab i hi
  have hL3 := hL2.search hι hd hsep hg hdet hP hbne hsne f1 f2
  have hL := hL3.search hι hd hsep hg hdet (P := List.range n) (P' := List.range m) (fun i hi => by simp [hi, hι.range i hi]) hbne hsne (s1.resolve_right fun h => h.1) (s2.resolve_right fun h => h.1)
  have hlt := h.lt hS
  refine sameInPart_of_labels hcfg hι hL (fun i hi c hc => lt_of_lt_of_le (hlt _ _ (hι.range i hi) hc) h.cap) (fun i hi c hc => lt_of_lt_of_le (hlt' _ _ hi hc) h'.cap) h.labels h'.labels fun i j x y hi hj hx hy e => ?_
  have h1 := hlt' _ _ hi hx
  have h2 := hlt' _ _ hj hy
  rw [hcount] at h1 h2
  exact wholeCluster_inj hι hsok.nodup h1 h2 e

end Scc
