/-
C11 and C44: guarantees for the maximum distance within clusters.
-/
import Verif.Spec.Approx
import Verif.Props.Batches
import Verif.Proofs.InwardsPairs
import Mathlib.Algebra.Order.Group.Abs
import Mathlib.Algebra.Order.Ring.Abs

set_option linter.unusedSimpArgs false
set_option linter.unusedVariables false

namespace Scc

variable {F : Type} [FloatOps F] {K : Type} [AddCommGroup K] [LinearOrder K] [IsOrderedAddMonoid K]

theorem Metric.nonneg {d : Nat → Nat → K} (h : Metric d) (x y : Nat) : 0 ≤ d x y := by
  have h1 := h.triangle x y x
  rw [h.self, h.symm y x] at h1
  by_contra hlt
  push Not at hlt
  have : d x y + d x y < 0 := add_neg hlt hlt
  exact absurd h1 (not_le.2 this)

/-- If enough points of the search set are within `D` of `v` then so are the nearest ones. -/
theorem closest_le {d : Nat → Nat → K} {v x : Nat} {D : K} {set C a : List Nat} (hC : C.Nodup) (hsub : C ⊆ set) (hCd : ∀ x ∈ C, d v x ≤ D) (hle : a.length ≤ C.length) (hx : x ∈ a)
    (h : ∀ y ∈ set, y ∉ a → d v x ≤ d v y) : d v x ≤ D := by
  by_contra hgt
  push Not at hgt
  have hsub : C ⊆ a.erase x := by
    intro y hy
    have hya : y ∈ a := by
      by_contra hya
      exact absurd (lt_of_lt_of_le hgt (h y (hsub hy) hya)) (not_lt.2 (hCd y hy))
    have hyx : y ≠ x := by rintro rfl; exact absurd (hCd y hy) (not_le.2 hgt)
    exact (List.mem_erase_of_ne hyx).2 hya
  have h1 := (List.subperm_of_subset hC hsub).length_le
  rw [List.length_erase_of_mem hx] at h1
  have := List.length_pos_of_mem hx
  omega

/-- There are `k` points of `set` within `D` of `v`. -/
def Close (d : Nat → Nat → K) (D : K) (v : Nat) (set : List Nat) (k : Nat) : Prop := ∃ C : List Nat, C.Nodup ∧ C ⊆ set ∧ (∀ x ∈ C, d v x ≤ D) ∧ k ≤ C.length

theorem Close.le {d : Nat → Nat → K} {D : K} {v x : Nat} {set a : List Nat} {k : Nat} (h : Close d D v set k) (hk : a.length = k) (hx : x ∈ a) (ha : ∀ y ∈ set, y ∉ a → d v x ≤ d v y) : d v x ≤ D := by
  obtain ⟨C, h1, h2, h3, h4⟩ := h
  exact closest_le h1 h2 h3 (by omega) hx ha

omit [FloatOps F] [IsOrderedAddMonoid K] in
theorem Feasible.close {d : Nat → Nat → K} {n : Nat} {o : Options F} {P : List Nat} {lab c : Nat → Nat} {D : K} {f : Nat → Option Nat} (hf : Feasible d n o P lab c D f) {v : Nat} (hv : v ∈ P) (hvn : v < n) :
    Close d D v (List.range n) o.sizeConstraint := by
  refine ⟨_, List.nodup_range.filter _, List.filter_subset' _, fun x hx => ?_, hf.size v hv⟩
  obtain ⟨h1, h2⟩ := List.mem_filter.1 hx
  exact hf.diameter v x hvn (List.mem_range.1 h1) (hf.assigned v hv) (by simpa using h2 : f x = f v).symm

omit [FloatOps F] [IsOrderedAddMonoid K] in
theorem Feasible.close_type {d : Nat → Nat → K} {n : Nat} {o : Options F} {P : List Nat} {lab c : Nat → Nat} {D : K} {f : Nat → Option Nat} (hf : Feasible d n o P lab c D f) (h2 : 2 ≤ o.numTypes)
    {v : Nat} (hv : v ∈ P) (hvn : v < n) {t : Nat} (ht : t < o.numTypes) : Close d D v (typeGroup n lab t) (c t) := by
  refine ⟨_, List.nodup_range.filter _, fun x hx => ?_, fun x hx => ?_, hf.types h2 v hv t ht⟩
  all_goals
    obtain ⟨h1, h2⟩ := List.mem_filter.1 hx
    have h2 : f x = f v ∧ lab x = t := by simpa using h2
  · exact mem_typeGroup.2 ⟨List.mem_range.1 h1, h2.2⟩
  · exact hf.diameter v x hvn (List.mem_range.1 h1) (hf.assigned v hv) h2.1.symm

theorem RunData.arc_le {cfg : Cfg} {d : Nat → Nat → K} {within : Nat → Nat → F → Prop} {dist : Nat → Nat → F} {n : Nat} {o : Options F} {m : SeedMethod} {P : List Nat} {lab c : Nat → Nat}
    {lost : Prop} {rows : Nat → List Nat} {order : List Nat} {L2 L3 L : Nat → Option Nat} {k : Nat} {l : Buf Int} {D : K}
    (h : RunData cfg (NearestBy d within) dist n o m P lab c lost rows order L2 L3 L k l) (hC : ∀ v ∈ P, Close d D v (List.range n) o.sizeConstraint)
    (hT : 2 ≤ o.numTypes → ∀ v ∈ P, ∀ t < o.numTypes, Close d D v (typeGroup n lab t) (c t)) : ∀ v, v < n → ∀ x ∈ rows v, v ∈ P ∧ d v x ≤ D := by
  intro v hv x hx
  obtain ⟨rows₀, hn₀, he⟩ := h.nng
  rw [he, mem_stored] at hx
  rcases hn₀ with ⟨-, ans, h1, h2⟩ | ⟨h0, h1⟩
  · rw [h2 v hv] at hx
    have hx' := nbrs_subset hx
    cases hav : ans v with
    | none => simp [ansRows, hav] at hx'
    | some a =>
      simp only [ansRows, hav, Option.getD_some] at hx'
      have hvP : v ∈ P := by
        by_contra hvP
        rw [h1.none_of v hvP] at hav; cases hav
      have hcr := h1.crit v hvP
      rw [hav] at hcr
      exact ⟨hvP, (hC v hvP).le (h1.row v a hav).1 hx' (hcr.2.2 x hx')⟩
  · rcases h1.row v hv with h2 | ⟨hvP, W, hW, hrow⟩
    · rw [h2] at hx; simp at hx
    · rw [hrow] at hx
      obtain ⟨hxW, hxv⟩ := mem_firstOcc.1 hx
      refine ⟨hvP, ?_⟩
      obtain ⟨a, hxa, ⟨hA, hl⟩ | ⟨t, ht, hA, hl⟩⟩ := hW.from_answer x hxW (by simpa using hxv)
      · exact (hC v hvP).le hl hxa (hA.2.2 x hxa)
      · exact (hT h0 v hvP t ht).le hl hxa (hA.2.2 x hxa)

/-- C11. If some clustering that meets the size and type constraints has maximum within-cluster distance at most `D`, then the clustering found has maximum within-cluster distance at most `4 D`.
This holds for all ways to assign primary points (if they may join a cluster because of a search, there must be no seed radius), when other points are not assigned by search. -/
theorem C11_four_approximation {cfg : Cfg} {spi : Spi F} {d : Nat → Nat → K} (hd : Metric d) {within : Nat → Nat → F → Prop} {dist : Nat → Nat → F} {mayRefuse : Prop} {o : Options F} {ob : ClObj}
    (hs : SpiOk spi ob.cl.n (NearestBy d within) dist mayRefuse) {P : List Nat} {lab c : Nat → Nat} {w : World} (hc : CallOk cfg o ob P lab c w) {m : SeedMethod} (hm : o.seedMethod = .method m)
    (hum : o.primaryMethod = .closestAssigned ∨ o.primaryMethod = .closestSeed → o.seedRadius = .noRadius) (hum2 : o.secondaryMethod = .ignore)
    {D : K} {f : Nat → Option Nat} (hf : Feasible d ob.cl.n o P lab c D f) :
    OnSuccess cfg spi o ob w fun k b => ∀ i, i < k → ∀ u ∈ members b ob.cl.n i, ∀ v ∈ members b ob.cl.n i, d u v ≤ 4 • D := by
  refine onSuccess_of_run hs hc hm fun rows order L2 L3 L k l hv h => ?_
  have hPn : ∀ v ∈ P, v < ob.cl.n := hc.arrays.range
  have harc' := h.arc_le (D := D) (fun v hv => hf.close hv (hPn v hv)) fun h2 v hv t ht => hf.close_type h2 hv (hPn v hv) ht
  have harc : ∀ v, v < ob.cl.n → ∀ x ∈ rows v, d v x ≤ D := fun v hv x hx => (harc' v hv x hx).2
  have hsok := h.seedsOk hv.size_two
  have hD : 0 ≤ D := by
    obtain ⟨s, -, hs2, hs3⟩ := h.seed_of_lt hv.size_two (i := 0) (by rw [h.count]; exact List.length_pos_iff.2 h.seeds_ne)
    obtain ⟨x, hx⟩ := List.exists_mem_of_ne_nil _ hs3
    exact (hd.nonneg s x).trans (harc s hs2 x hx)
  have hcapd : ∀ i s, (greedySeeds rows order)[i]? = some s → ∀ x, CapturedBy rows (greedySeeds rows order) i x → d s x ≤ D := by
    rintro i s hs' x ⟨s', h1, h2⟩
    rw [hs'] at h1; cases h1
    rcases List.mem_cons.1 h2 with rfl | h2
    · rw [hd.self]; exact hD
    · exact harc s (hsok.range s (List.mem_of_getElem? hs')) x h2
  -- without seed radius a primary point has a captured point within `D`
  have hnear : ∀ v ∈ P, o.seedRadius = .noRadius → ∃ x j, x < ob.cl.n ∧ CapturedBy rows (greedySeeds rows order) j x ∧ d v x ≤ D := by
    intro v hvP hr
    obtain ⟨x, hx1, hx2⟩ := h.near hv.size_two (by simp [seedLimit, hr]) (hPn v hvP) hvP
    obtain ⟨j, hj⟩ := Option.isSome_iff_exists.1 hx2
    have hcap := (capturedBy_iff hsok).2 hj
    refine ⟨x, j, (h.captured hc.config hv.size_two hcap).1, hcap, ?_⟩
    rcases List.mem_cons.1 hx1 with rfl | hx1
    · rw [hd.self]; exact hD
    · exact harc v (hPn v hvP) x hx1
  -- every member is within `2 D` of the seed
  have key : ∀ i, i < k → ∀ s, (greedySeeds rows order)[i]? = some s → ∀ v ∈ members l ob.cl.n i, d s v ≤ D + D := by
    intro i hi s hs' v hmem
    have hsn := hsok.range s (List.mem_of_getElem? hs')
    have hvia : ∀ x, CapturedBy rows (greedySeeds rows order) i x → d v x ≤ D → d s v ≤ D + D := fun x h1 h2 => by
      rw [hd.symm] at h2
      exact (hd.triangle s x v).trans (add_le_add (hcapd i s hs' x h1) h2)
    obtain ⟨hvn, hget⟩ := mem_members.1 hmem
    have hL := (h.labels.get_eq hc.config (h.lt hv.size_two) h.cap hvn hi).1 hget
    rcases h.rule hv.size_two hvn hL with h2 | ⟨hnone, ⟨hvP, -, x, hx1, hx2⟩ | ⟨hvP, h2⟩ | h2⟩
    · exact (hcapd i s hs' v h2).trans (le_add_of_nonneg_left hD)
    · exact hvia x hx2 (harc v hvn x (List.mem_of_find?_eq_some hx1))
    · rcases h2 with ⟨h2, x, hx1, hx2⟩ | ⟨h2, s', hs1, hs2⟩
      · obtain ⟨y, j, hyn, hy1, hy2⟩ := hnear v hvP (hum (Or.inl h2))
        refine hvia x hx1 (le_trans ?_ hy2)
        by_cases hyx : y = x
        · rw [hyx]
        · exact hx2.2.2 x (by simp) y (mem_labelled.2 ⟨hyn, by rw [(capturedBy_iff hsok).1 hy1]; rfl⟩) (by simpa using hyx)
      · rw [hs'] at hs1; cases hs1
        obtain ⟨y, j, hyn, hy1, hy2⟩ := hnear v hvP (hum (Or.inr h2))
        obtain ⟨s', hs3, hs4⟩ := hy1
        have h5 : d v s' ≤ D + D := by
          have := hcapd j s' hs3 y ⟨s', hs3, hs4⟩
          rw [hd.symm] at this
          exact (hd.triangle v y s').trans (add_le_add hy2 this)
        rw [hd.symm]
        by_cases hss : s' = s
        · rw [← hss]; exact h5
        · exact (hs2.2.2 s (by simp) s' (List.mem_of_getElem? hs3) (by simpa using hss)).trans h5
    · rcases h2 with ⟨h2, -⟩ | ⟨h2, -⟩ <;> rw [hum2] at h2 <;> cases h2
  intro i hi u hu v hv'
  obtain ⟨s, hs1, -, -⟩ := h.seed_of_lt hv.size_two hi
  have h1 := key i hi s hs1 u hu
  have h2 := key i hi s hs1 v hv'
  rw [hd.symm] at h1
  calc d u v ≤ d u s + d s v := hd.triangle u s v
    _ ≤ (D + D) + (D + D) := add_le_add h1 h2
    _ = 4 • D := by abel

/-- C11 for batches. -/
theorem C11_four_approximation_batches {cfg : Cfg} {spi : Spi F} {d : Nat → Nat → K} (hd : Metric d) {within : Nat → Nat → F → Prop} {dist : Nat → Nat → F} {mayRefuse : Prop} {o : Options F} {ob : ClObj}
    (hs : SpiOk spi ob.cl.n (NearestBy d within) dist mayRefuse) {P : List Nat} {lab c : Nat → Nat} {w : World} (hc : CallOk cfg o ob P lab c w) (hm : o.seedMethod = .batches)
    (hfit : BatchFits o ob.cl.n) {D : K} {f : Nat → Option Nat} (hf : Feasible d ob.cl.n o P lab c D f) :
    OnSuccess cfg spi o ob w fun k b => ∀ i, i < k → ∀ u ∈ members b ob.cl.n i, ∀ v ∈ members b ob.cl.n i, d u v ≤ 4 • D := by
  obtain ⟨e, p, w', h1, h2⟩ := C45_batch_clusters hs hc hm hfit fun _ s _ x _ y _ h => h.trans (by rw [hd.self]; exact hd.nonneg s y)
  refine ⟨e, p, w', h1, fun he => ?_⟩
  obtain ⟨hfl, cl, b, h3, h4, h5, h6, h7, core, hcore⟩ := h2 he
  refine ⟨hfl, cl, b, h3, h4, h5, h6, h7, ?_⟩
  intro i hi u hu v hv
  have hPn : ∀ v ∈ P, v < ob.cl.n := hc.arrays.range
  obtain ⟨s, hsP, hsc, hlen, hnd, hmem, hnear⟩ := hcore.seed i hi
  have hD : 0 ≤ D := by
    have := hf.diameter s s (hPn s hsP) (hPn s hsP) (hf.assigned s hsP) rfl
    rwa [hd.self] at this
  have hcd : ∀ x ∈ core i, d s x ≤ D := by
    intro x hx
    by_cases hxs : x = s
    · rw [hxs, hd.self]; exact hD
    · exact (hf.close hsP (hPn s hsP)).le hlen hx fun y hy hyc => (hnear x hx hxs).1 y (List.mem_range.1 hy) hyc
  have key : ∀ v ∈ members b.buf ob.cl.n i, d s v ≤ D + D := by
    intro v hv
    by_cases hvc : v ∈ core i
    · exact (hcd v hvc).trans (le_add_of_nonneg_left hD)
    · obtain ⟨-, hvP, x, hx, a, hxa, hal, -, -, hle, -⟩ := hcore.other i hi v hv hvc
      have h8 : d v x ≤ D := (hf.close hvP (hPn v hvP)).le hal hxa fun y hy hya => hle x hxa y (List.mem_range.1 hy) hya
      rw [hd.symm] at h8
      exact (hd.triangle s x v).trans (add_le_add (hcd x hx) h8)
  have h8 := key u hu
  rw [hd.symm] at h8
  calc d u v ≤ d u s + d s v := hd.triangle u s v
    _ ≤ (D + D) + (D + D) := add_le_add h8 (key v hv)
    _ = 4 • D := by abel

/-- For C44: pairs of points in a cluster when arcs have at most length `D`. -/
theorem RunData.inwards_pairs {cfg : Cfg} {A : Criterion F} {d : Nat → Nat → K} (hd : Metric d) {dist : Nat → Nat → F} {lost : Prop} {o : Options F} {n : Nat} {P : List Nat} {lab c : Nat → Nat}
    {rows : Nat → List Nat} {order : List Nat} {L2 L3 L : Nat → Option Nat} {k : Nat} {l : Buf Int} (h : RunData cfg A dist n o .inwardsUpdating P lab c lost rows order L2 L3 L k l)
    (hcfg : cfg.Valid) (hP : P = List.range n) (hS : o.sizeConstraint = 2) (ht : o.numTypes < 2) (hR : o.seedRadius = .noRadius) (hum : o.primaryMethod = .anyNeighbor) (hum2 : o.secondaryMethod = .ignore)
    {D : K} (hDpos : ∀ v, v < n → 0 ≤ D) (harc : ∀ v, v < n → ∀ x ∈ rows v, d v x ≤ D) :
    ∀ i, i < k → ∀ u ∈ members l n i, ∀ v ∈ members l n i, d u v ≤ 2 • D := by
  have hsize : 2 ≤ o.sizeConstraint := hS.ge
  have hone : ∀ v, v < n → ∃ x, rows v = [x] := by
    intro v hvn
    obtain ⟨rows₀, hn₀, he⟩ := h.nng
    rcases hn₀ with ⟨-, ans, h1, h2⟩ | ⟨h1, -⟩
    swap
    · omega
    have hvP : v ∈ P := by rw [hP]; exact List.mem_range.2 hvn
    obtain ⟨a, ha⟩ := Option.ne_none_iff_exists'.1 (h1.all (by simp [seedLimit, hR]) v hvP)
    obtain ⟨r1, r2, -⟩ := h1.row v a ha
    refine List.length_eq_one_iff.1 ?_
    rw [he, length_stored, h2 v hvn]
    simp only [ansRows, ha, Option.getD_some]
    rw [length_nbrs r2, r1, hS]
  have hsok := h.seedsOk hsize
  -- a member is the seed, its neighbour, or a point left over that points to one of them
  have key : ∀ i, i < k → ∀ s t, (greedySeeds rows order)[i]? = some s → rows s = [t] → ∀ v ∈ members l n i,
      v = s ∨ v = t ∨ v < n ∧ ¬ Captured rows (greedySeeds rows order) v ∧ (rows v = [s] ∨ rows v = [t]) := by
    intro i hi s t hs' hst v hmem
    have hcap : ∀ x, CapturedBy rows (greedySeeds rows order) i x → x = s ∨ x = t := by
      rintro x ⟨s', h1, h2⟩
      rw [hs'] at h1; cases h1
      simpa [closedNbr, hst] using h2
    obtain ⟨hvn, hget⟩ := mem_members.1 hmem
    have hL := (h.labels.get_eq hcfg (h.lt hsize) h.cap hvn hi).1 hget
    rcases h.rule hsize hvn hL with h2 | ⟨hnone, ⟨hvP, -, x, hx1, hx2⟩ | ⟨hvP, h2⟩ | h2⟩
    · rcases hcap v h2 with h2 | h2
      · exact Or.inl h2
      · exact Or.inr (Or.inl h2)
    · refine Or.inr (Or.inr ⟨hvn, ?_, ?_⟩)
      · rintro ⟨s', h1, h2⟩
        obtain ⟨j, hj⟩ := List.mem_iff_getElem?.1 h1
        rw [hsok.seedLab hj h2] at hnone; cases hnone
      · obtain ⟨y, hy⟩ := hone v hvn
        have hxm := List.mem_of_find?_eq_some hx1
        rw [hy, List.mem_singleton] at hxm
        subst hxm
        rw [hy]
        exact (hcap x hx2).imp (fun h => by rw [h]) (fun h => by rw [h])
    · rcases h2 with ⟨h2, -⟩ | ⟨h2, -⟩ <;> rw [hum] at h2 <;> cases h2
    · rcases h2 with ⟨h2, -⟩ | ⟨h2, -⟩ <;> rw [hum2] at h2 <;> cases h2
  intro i hi u hu v hv'
  obtain ⟨s, hs1, hs2, -⟩ := h.seed_of_lt hsize hi
  obtain ⟨t, hst⟩ := hone s hs2
  have hsm := List.mem_of_getElem? hs1
  have h0 := hDpos s hs2
  have hdst : d s t ≤ D := harc s hs2 t (by simp [hst])
  have htwo : ∀ x, x ≤ D → x ≤ 2 • D := fun x hx => by rw [two_nsmul]; exact hx.trans (le_add_of_nonneg_left h0)
  have hvia : ∀ x y z, d x y ≤ D → d y z ≤ D → d x z ≤ 2 • D := fun x y z h1 h2 => by
    rw [two_nsmul]; exact (hd.triangle x y z).trans (add_le_add h1 h2)
  have hto : ∀ x y, x < n → rows x = [y] → d x y ≤ D := fun x y hx hy => harc x hx y (by simp [hy])
  rcases key i hi s t hs1 hst u hu with rfl | rfl | ⟨hun, huc, hus | hut⟩ <;>
    rcases key i hi _ _ hs1 hst v hv' with rfl | rfl | ⟨hvn, hvc, hvs | hvt⟩
  all_goals first
    | exact (by rw [hd.self]; exact htwo 0 h0)
    | exact htwo _ hdst
    | exact htwo _ (by rw [hd.symm]; exact hdst)
    | exact htwo _ (by rw [hd.symm]; exact hto _ _ hvn hvs)
    | exact htwo _ (by rw [hd.symm]; exact hto _ _ hvn hvt)
    | exact htwo _ (hto _ _ hun hus)
    | exact htwo _ (hto _ _ hun hut)
    | exact hvia _ s _ (by rw [hd.symm]; exact hdst) (by rw [hd.symm]; exact hto _ _ hvn hvs)
    | exact hvia _ t _ hdst (by rw [hd.symm]; exact hto _ _ hvn hvt)
    | exact hvia _ _ _ (hto _ _ hun hus) hdst
    | exact hvia _ _ _ (hto _ _ hun hut) (by rw [hd.symm]; exact hdst)
    | exact hvia _ _ _ (hto _ _ hun hus) (by rw [hd.symm]; exact hto _ _ hvn hvs)
    | exact hvia _ _ _ (hto _ _ hun hut) (by rw [hd.symm]; exact hto _ _ hvn hvt)
    | exact (inwards_pair h.perm hone h.method.1 hsm hst hun huc hus hvn hvc hvt).elim
    | exact (inwards_pair h.perm hone h.method.1 hsm hst hvn hvc hvs hun huc hut).elim

/-- C44. With clusters of at least two points, inwards updating and "any neighbour", two points of a cluster are at most twice as far apart as `D`, when every point has another
point within `D` (`D` is at least the largest distance of a point to its nearest neighbour). -/
theorem C44_inwards_pairs {cfg : Cfg} {spi : Spi F} {d : Nat → Nat → K} (hd : Metric d) {within : Nat → Nat → F → Prop} {dist : Nat → Nat → F} {mayRefuse : Prop} {o : Options F} {ob : ClObj}
    (hs : SpiOk spi ob.cl.n (NearestBy d within) dist mayRefuse) {P : List Nat} {lab c : Nat → Nat} {w : World} (hc : CallOk cfg o ob P lab c w) (hm : o.seedMethod = .method .inwardsUpdating)
    (hS : o.sizeConstraint = 2) (ht : o.numTypes < 2) (hp : o.primary = none) (hR : o.seedRadius = .noRadius) (hum : o.primaryMethod = .anyNeighbor) (hum2 : o.secondaryMethod = .ignore)
    {D : K} (hD : ∀ v, v < ob.cl.n → ∃ x, x < ob.cl.n ∧ x ≠ v ∧ d v x ≤ D) :
    OnSuccess cfg spi o ob w fun k b => ∀ i, i < k → ∀ u ∈ members b ob.cl.n i, ∀ v ∈ members b ob.cl.n i, d u v ≤ 2 • D := by
  refine onSuccess_of_run hs hc hm fun rows order L2 L3 L k l hv h => ?_
  have hP : P = List.range ob.cl.n := hc.arrays.all hp
  have hDpos : ∀ v, v < ob.cl.n → 0 ≤ D := fun v hvn => by
    obtain ⟨x, -, -, hx⟩ := hD v hvn
    exact (hd.nonneg v x).trans hx
  have harc' := h.arc_le (D := D) (fun v hvP => by
    have hvn := hc.arrays.range v hvP
    obtain ⟨x, hx1, hx2, hx3⟩ := hD v hvn
    refine ⟨[v, x], by simp [hx2.symm], by intro y hy; simp at hy; rw [List.mem_range]; omega, ?_, by simp [hS]⟩
    intro y hy
    rcases List.mem_cons.1 hy with rfl | hy
    · rw [hd.self]; exact hDpos y hvn
    · rw [List.mem_singleton.1 hy]; exact hx3) fun h2 => by omega
  have harc : ∀ v, v < ob.cl.n → ∀ x ∈ rows v, d v x ≤ D := fun v hv x hx => (harc' v hv x hx).2
  exact h.inwards_pairs hd hc.config hP hS ht hR hum hum2 hDpos harc

/-! ### The hypotheses hold for the points on the line -/

/-- Distance of points on the line. -/
def lineD (i j : Nat) : Int := |lineData.coord i 0 - lineData.coord j 0|

theorem lineD_metric : Metric lineD where
  self x := by simp [lineD]
  symm x y := abs_sub_comm _ _
  triangle x y z := abs_sub_le _ _ _

theorem lineD_le (q x y : Nat) : lineData.NoFarther q x y ↔ lineD q x ≤ lineD q y := by
  have h : ∀ i j, lineData.sqd i j = (lineData.coord i 0 - lineData.coord j 0) * (lineData.coord i 0 - lineData.coord j 0) := fun i j => zero_add _
  unfold DataSet.NoFarther
  rw [h, h]
  show decide _ = true ↔ _
  rw [decide_eq_true_eq]
  exact abs_le_iff_mul_self_le.symm

def lineSpi_by : SpiOk (builtinSpi (some lineData)) lineObj.cl.n (NearestBy lineD lineData.Within) lineData.dist False := by
  have e : NearestBy lineD lineData.Within = Nearest lineData.NoFarther lineData.Within := by
    unfold NearestBy
    congr 1
    funext q x y
    exact propext (lineD_le q x y).symm
  rw [e]
  exact lineSpi_nearest

/-- Two clusters of three points compete. -/
theorem line_feasible {o : Options Int} (hS : o.sizeConstraint = 2) (ht : o.numTypes < 2) : Feasible lineD 6 o (List.range 6) (fun _ => 0) (fun _ => 0) 13 (fun v => some (v / 3)) where
  assigned := nofun
  size := by rw [hS]; decide
  types h := by omega
  diameter u v hu hv _ h := (by decide : ∀ u, u < 6 → ∀ v, v < 6 → some (u / 3) = some (v / 3) → lineD u v ≤ 13) u hu v hv h

example : OnSuccess sampleCfg (builtinSpi (some lineData)) (lineOpts .closestSeed .noRadius 0) lineObj (sampleWorld [5])
    fun k b => ∀ i, i < k → ∀ u ∈ members b 6 i, ∀ v ∈ members b 6 i, lineD u v ≤ 4 • 13 :=
  C11_four_approximation lineD_metric lineSpi_by (line_call _ _ _) rfl (fun _ => rfl) rfl (line_feasible rfl (by decide))

example : OnSuccess sampleCfg (builtinSpi (some lineData)) typeOpts lineObj (sampleWorld [5])
    fun k b => ∀ i, i < k → ∀ u ∈ members b 6 i, ∀ v ∈ members b 6 i, lineD u v ≤ 4 • 13 :=
  C11_four_approximation lineD_metric lineSpi_by (line_callOk typeOpts_arrays ⟨by decide, fun _ => ⟨⟨0, by decide⟩, by decide⟩⟩) rfl (by rintro (h | h) <;> cases h) rfl (f := fun v => some (v / 3))
    ⟨nofun, by decide, by decide,
    fun u v hu hv _ h => (by decide : ∀ u, u < 6 → ∀ v, v < 6 → some (u / 3) = some (v / 3) → lineD u v ≤ 13) u hu v hv h⟩

example : OnSuccess sampleCfg (builtinSpi (some lineData)) (batchOpts .anyNeighbor 4) lineObj (sampleWorld [5])
    fun k b => ∀ i, i < k → ∀ u ∈ members b 6 i, ∀ v ∈ members b 6 i, lineD u v ≤ 4 • 13 :=
  C11_four_approximation_batches lineD_metric lineSpi_by (batch_call _ _) rfl (batch_fits _ _) (line_feasible rfl (by decide))

example : LineOk (lineOpts .anyNeighbor .useSeedRadius 0) := by
  obtain ⟨cl, b, w', h, -⟩ := line_run (um := .anyNeighbor) (pr := .useSeedRadius) (r := 0) (Or.inl rfl) ⟨nofun, nofun⟩ nofun
  exact ⟨cl, w', h⟩

example : ∀ v, v < 6 → ∃ x, x < 6 ∧ x ≠ v ∧ lineD v x ≤ 12 := by decide

example : LineOk { (defaultOptions : Options Int) with sizeConstraint := 2, seedMethod := .method .inwardsUpdating } := by
  refine line_ok (P := List.range 6) (lab := fun _ => 0) (c := fun _ => 0) (m := .inwardsUpdating)
    ⟨rfl, by decide, by decide, Or.inl ⟨by decide, rfl, rfl, rfl⟩, nofun, Or.inl ⟨rfl, rfl⟩, nofun, Or.inl rfl, ⟨Or.inl rfl, nofun, nofun⟩, ⟨nofun, nofun⟩, ⟨nofun, nofun⟩, nofun⟩
    ⟨fun _ => rfl, nofun, fun x hx => List.mem_range.1 hx, nofun, nofun⟩
    ⟨by decide, fun h => absurd h (by decide)⟩ rfl (by decide) ?_ ?_ (fun h => absurd h (by decide))
  · rintro (⟨-, h, -⟩ | ⟨h, -⟩)
    · exact h rfl
    · exact absurd h (by decide)
  · rintro rows order - - ⟨⟨-, h⟩ | ⟨-, h⟩, -⟩ <;> cases h

end Scc
