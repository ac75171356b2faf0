/-
C75: the guarantee for the maximum distance within clusters, when the nearest neighbours found are the nearest ones up to a factor.
-/
import Verif.Spec.NearApprox
import Verif.Props.Approx
import Verif.Proofs.NearWeaken
import Mathlib.Tactic.Linarith
import Mathlib.Tactic.Ring

set_option linter.unusedSimpArgs false
set_option linter.unusedVariables false

namespace Scc

variable {F : Type} [FloatOps F] {K : Type} [CommRing K] [LinearOrder K] [IsStrictOrderedRing K]

theorem Close.le_near {d : Nat → Nat → K} {D c : K} (hc : 1 ≤ c) (hD : 0 ≤ D) {v x : Nat} {set a : List Nat} {k : Nat} (h : Close d D v set k) (hk : a.length = k) (hx : x ∈ a)
    (ha : ∀ y ∈ set, y ∉ a → d v x ≤ c * d v y) : d v x ≤ c * D := by
  obtain ⟨C, hC, hsub, hCd, hle⟩ := h
  by_contra hgt
  push Not at hgt
  have hDc : D ≤ c * D := le_mul_of_one_le_left hD hc
  have hsub : C ⊆ a.erase x := by
    intro y hy
    have hya : y ∈ a := by
      by_contra hya
      have h1 := ha y (hsub hy) hya
      have h2 : c * d v y ≤ c * D := mul_le_mul_of_nonneg_left (hCd y hy) (zero_le_one.trans hc)
      exact absurd (h1.trans h2) (not_le.2 hgt)
    have hyx : y ≠ x := by rintro rfl; exact absurd ((hCd y hy).trans hDc) (not_le.2 hgt)
    exact (List.mem_erase_of_ne hyx).2 hya
  have h1 := (List.subperm_of_subset hC hsub).length_le
  rw [List.length_erase_of_mem hx] at h1
  have := List.length_pos_of_mem hx
  omega

theorem RunData.arc_le_near {cfg : Cfg} {d : Nat → Nat → K} {c : K} (hc1 : 1 ≤ c) {within : Nat → Nat → F → Prop} {dist : Nat → Nat → F} {n : Nat} {o : Options F} {m : SeedMethod} {P : List Nat} {lab cs : Nat → Nat}
    {lost : Prop} {rows : Nat → List Nat} {order : List Nat} {L2 L3 L : Nat → Option Nat} {k : Nat} {l : Buf Int} {D : K} (hD : 0 ≤ D)
    (h : RunData cfg (NearestUpTo c d within) dist n o m P lab cs lost rows order L2 L3 L k l) (hC : ∀ v ∈ P, Close d D v (List.range n) o.sizeConstraint)
    (hT : 2 ≤ o.numTypes → ∀ v ∈ P, ∀ t < o.numTypes, Close d D v (typeGroup n lab t) (cs t)) : ∀ v, v < n → ∀ x ∈ rows v, v ∈ P ∧ d v x ≤ c * D := by
  intro v hv x hx
  obtain ⟨rows₀, hn₀, he⟩ := h.nng
  rw [he, mem_stored] at hx
  rcases hn₀ with ⟨-, ans, h1, h2⟩ | ⟨h0, h1⟩
  · rw [h2 v hv] at hx
    have hx' := nbrs_subset hx
    cases hav : ans v with
    | none => simp [ansRows, hav] at hx'
    | some a =>
      simp only [ansRows, hav, Option.getD_some] at hx'
      have hvP : v ∈ P := by
        by_contra hvP
        rw [h1.none_of v hvP] at hav; cases hav
      have hcr := h1.crit v hvP
      rw [hav] at hcr
      exact ⟨hvP, (hC v hvP).le_near hc1 hD (h1.row v a hav).1 hx' (hcr.2.2 x hx')⟩
  · rcases h1.row v hv with h2 | ⟨hvP, W, hW, hrow⟩
    · rw [h2] at hx; simp at hx
    · rw [hrow] at hx
      obtain ⟨hxW, hxv⟩ := mem_firstOcc.1 hx
      refine ⟨hvP, ?_⟩
      obtain ⟨a, hxa, ⟨hA, hl⟩ | ⟨t, ht, hA, hl⟩⟩ := hW.from_answer x hxW (by simpa using hxv)
      · exact (hC v hvP).le_near hc1 hD hl hxa (hA.2.2 x hxa)
      · exact (hT h0 v hvP t ht).le_near hc1 hD hl hxa (hA.2.2 x hxa)

omit [FloatOps F] in
theorem Feasible.nonneg {d : Nat → Nat → K} (hd : Metric d) {n : Nat} {o : Options F} {P : List Nat} {lab c : Nat → Nat} {D : K} {f : Nat → Option Nat} (hf : Feasible d n o P lab c D f) {v : Nat} (hv : v ∈ P)
    (hvn : v < n) : 0 ≤ D := by
  have := hf.diameter v v hvn hvn (hf.assigned v hv) rfl
  rwa [hd.self] at this

/-- C75. The nearest neighbours found are nearest up to a factor `e`. If some clustering that meets the size and type constraints has maximum within-cluster distance at most `D`, then the clustering found
has maximum within-cluster distance at most `4 e^2 D`, and at most `4 e D` if no points are assigned by search. The conditions are those of C11. -/
theorem C75_near_neighbours {cfg : Cfg} {spi : Spi F} {d : Nat → Nat → K} (hd : Metric d) {e : K} (he : 1 ≤ e) {within : Nat → Nat → F → Prop} {dist : Nat → Nat → F} {mayRefuse : Prop} {o : Options F} {ob : ClObj}
    (hs : SpiOk spi ob.cl.n (NearestUpTo e d within) dist mayRefuse) {P : List Nat} {lab c : Nat → Nat} {w : World} (hc : CallOk cfg o ob P lab c w) {m : SeedMethod} (hm : o.seedMethod = .method m)
    (hum : o.primaryMethod = .closestAssigned ∨ o.primaryMethod = .closestSeed → o.seedRadius = .noRadius) (hum2 : o.secondaryMethod = .ignore)
    {D : K} {f : Nat → Option Nat} (hf : Feasible d ob.cl.n o P lab c D f) :
    OnSuccess cfg spi o ob w fun k b => ∀ i, i < k → ∀ u ∈ members b ob.cl.n i, ∀ v ∈ members b ob.cl.n i, d u v ≤ 4 * e ^ 2 * D ∧
      (o.primaryMethod ≠ .closestAssigned → o.primaryMethod ≠ .closestSeed → d u v ≤ 4 * e * D) := by
  refine onSuccess_of_run hs hc hm fun rows order L2 L3 L k l hv h => ?_
  have hPn : ∀ v ∈ P, v < ob.cl.n := hc.arrays.range
  have he0 : 0 ≤ e := zero_le_one.trans he
  intro i hi u hu v hv'
  have hPne : P ≠ [] := by
    rintro rfl
    obtain ⟨s, -, hs2, hs3⟩ := h.seed_of_lt hv.size_two (i := 0) (by omega)
    obtain ⟨x, hx⟩ := List.exists_mem_of_ne_nil _ hs3
    have hno : ∀ v, v < ob.cl.n → ∀ x ∈ rows v, False := fun v hv x hx =>
      absurd (h.arc_le_near he (D := 0) (le_refl _) (by simp) (by simp) v hv x hx).1 (by simp)
    exact hno s hs2 x hx
  have hD : 0 ≤ D := by
    obtain ⟨v, hvP⟩ := List.exists_mem_of_ne_nil _ hPne
    exact hf.nonneg hd hvP (hPn v hvP)
  have harc : ∀ v, v < ob.cl.n → ∀ x ∈ rows v, d v x ≤ e * D := fun v hv x hx =>
    (h.arc_le_near he hD (fun v hv => hf.close hv (hPn v hv)) (fun h2 v hv t ht => hf.close_type h2 hv (hPn v hv) ht) v hv x hx).2
  have heD : 0 ≤ e * D := mul_nonneg he0 hD
  have heD2 : e * D ≤ e * (e * D) := le_mul_of_one_le_left heD he
  have hsok := h.seedsOk hv.size_two
  have hcapd : ∀ i s, (greedySeeds rows order)[i]? = some s → ∀ x, CapturedBy rows (greedySeeds rows order) i x → d s x ≤ e * D := by
    rintro i s hs' x ⟨s', h1, h2⟩
    rw [hs'] at h1; cases h1
    rcases List.mem_cons.1 h2 with rfl | h2
    · rw [hd.self]; exact heD
    · exact harc s (hsok.range s (List.mem_of_getElem? hs')) x h2
  -- without seed radius a primary point has a captured point within `e D`
  have hnear : ∀ v ∈ P, o.seedRadius = .noRadius → ∃ x j, x < ob.cl.n ∧ CapturedBy rows (greedySeeds rows order) j x ∧ d v x ≤ e * D := by
    intro v hvP hr
    obtain ⟨x, hx1, hx2⟩ := h.near hv.size_two (by simp [seedLimit, hr]) (hPn v hvP) hvP
    obtain ⟨j, hj⟩ := Option.isSome_iff_exists.1 hx2
    have hcap := (capturedBy_iff hsok).2 hj
    refine ⟨x, j, (h.captured hc.config hv.size_two hcap).1, hcap, ?_⟩
    rcases List.mem_cons.1 hx1 with rfl | hx1
    · rw [hd.self]; exact heD
    · exact harc v (hPn v hvP) x hx1
  -- every member is within `2 e^2 D` of the seed
  have key : ∀ i, i < k → ∀ s, (greedySeeds rows order)[i]? = some s → ∀ v ∈ members l ob.cl.n i, d s v ≤ 2 * (e * (e * D)) ∧
      (o.primaryMethod ≠ .closestAssigned → o.primaryMethod ≠ .closestSeed → d s v ≤ 2 * (e * D)) := by
    intro i hi s hs' v hmem
    have hsn := hsok.range s (List.mem_of_getElem? hs')
    have hvia : ∀ x B, CapturedBy rows (greedySeeds rows order) i x → d v x ≤ B → d s v ≤ e * D + B := fun x B h1 h2 => by
      rw [hd.symm] at h2
      exact (hd.triangle s x v).trans (add_le_add (hcapd i s hs' x h1) h2)
    obtain ⟨hvn, hget⟩ := mem_members.1 hmem
    have hL := (h.labels.get_eq hc.config (h.lt hv.size_two) h.cap hvn hi).1 hget
    have hsmall : d s v ≤ 2 * (e * D) → d s v ≤ 2 * (e * (e * D)) ∧ (o.primaryMethod ≠ .closestAssigned → o.primaryMethod ≠ .closestSeed → d s v ≤ 2 * (e * D)) :=
      fun h => ⟨by linarith, fun _ _ => h⟩
    rcases h.rule hv.size_two hvn hL with h2 | ⟨hnone, ⟨hvP, -, x, hx1, hx2⟩ | ⟨hvP, h2⟩ | h2⟩
    · exact hsmall (by linarith [hcapd i s hs' v h2])
    · exact hsmall (by linarith [hvia x _ hx2 (harc v hvn x (List.mem_of_find?_eq_some hx1))])
    · rcases h2 with ⟨h2, x, hx1, hx2⟩ | ⟨h2, s', hs1, hs2⟩
      · refine ⟨?_, fun h => absurd h2 h⟩
        obtain ⟨y, j, hyn, hy1, hy2⟩ := hnear v hvP (hum (Or.inl h2))
        have h3 : d v x ≤ e * (e * D) := by
          by_cases hyx : y = x
          · rw [← hyx]; exact hy2.trans heD2
          · exact (hx2.2.2 x (by simp) y (mem_labelled.2 ⟨hyn, by rw [(capturedBy_iff hsok).1 hy1]; rfl⟩) (by simpa using hyx)).trans (mul_le_mul_of_nonneg_left hy2 he0)
        linarith [hvia x _ hx1 h3]
      · refine ⟨?_, fun _ h => absurd h2 h⟩
        rw [hs'] at hs1; cases hs1
        obtain ⟨y, j, hyn, hy1, hy2⟩ := hnear v hvP (hum (Or.inr h2))
        obtain ⟨s', hs3, hs4⟩ := hy1
        have h5 : d v s' ≤ 2 * (e * D) := by
          have := hcapd j s' hs3 y ⟨s', hs3, hs4⟩
          rw [hd.symm] at this
          linarith [hd.triangle v y s']
        rw [hd.symm]
        by_cases hss : s' = s
        · rw [← hss]; linarith
        · have h6 := (hs2.2.2 s (by simp) s' (List.mem_of_getElem? hs3) (by simpa using hss)).trans (mul_le_mul_of_nonneg_left h5 he0)
          linarith
    · rcases h2 with ⟨h2, -⟩ | ⟨h2, -⟩ <;> rw [hum2] at h2 <;> cases h2
  obtain ⟨s, hs1, -, -⟩ := h.seed_of_lt hv.size_two hi
  have h1 := key i hi s hs1 u hu
  have h2 := key i hi s hs1 v hv'
  rw [hd.symm] at h1
  have h3 := hd.triangle u s v
  refine ⟨?_, fun ha hb => ?_⟩
  · rw [show 4 * e ^ 2 * D = 2 * (e * (e * D)) + 2 * (e * (e * D)) by ring]
    linarith [h1.1, h2.1]
  · linarith [h1.2 ha hb, h2.2 ha hb]

/-- C75 for batches: the factor is `4 e`. -/
theorem C75_near_neighbours_batches {cfg : Cfg} {spi : Spi F} {d : Nat → Nat → K} (hd : Metric d) {e : K} (he : 1 ≤ e) {within : Nat → Nat → F → Prop} {dist : Nat → Nat → F} {mayRefuse : Prop} {o : Options F} {ob : ClObj}
    (hs : SpiOk spi ob.cl.n (NearestUpTo e d within) dist mayRefuse) {P : List Nat} {lab c : Nat → Nat} {w : World} (hc : CallOk cfg o ob P lab c w) (hm : o.seedMethod = .batches)
    (hfit : BatchFits o ob.cl.n) {D : K} {f : Nat → Option Nat} (hf : Feasible d ob.cl.n o P lab c D f) :
    OnSuccess cfg spi o ob w fun k b => ∀ i, i < k → ∀ u ∈ members b ob.cl.n i, ∀ v ∈ members b ob.cl.n i, d u v ≤ 4 * e * D := by
  have he0 : 0 ≤ e := zero_le_one.trans he
  obtain ⟨e', p, w', h1, h2⟩ := C45_batch_clusters hs hc hm hfit fun _ s _ x _ y _ h => by
    rw [hd.self, mul_zero] at h
    exact h.trans (mul_nonneg he0 (hd.nonneg s y))
  refine ⟨e', p, w', h1, fun he' => ?_⟩
  obtain ⟨hfl, cl, b, h3, h4, h5, h6, h7, core, hcore⟩ := h2 he'
  refine ⟨hfl, cl, b, h3, h4, h5, h6, h7, ?_⟩
  intro i hi u hu v hv
  have hPn : ∀ v ∈ P, v < ob.cl.n := hc.arrays.range
  obtain ⟨s, hsP, hsc, hlen, hnd, hmem, hnear⟩ := hcore.seed i hi
  have hD : 0 ≤ D := hf.nonneg hd hsP (hPn s hsP)
  have heD : 0 ≤ e * D := mul_nonneg he0 hD
  have hcd : ∀ x ∈ core i, d s x ≤ e * D := by
    intro x hx
    by_cases hxs : x = s
    · rw [hxs, hd.self]; exact heD
    · exact (hf.close hsP (hPn s hsP)).le_near he hD hlen hx fun y hy hyc => (hnear x hx hxs).1 y (List.mem_range.1 hy) hyc
  have key : ∀ v ∈ members b.buf ob.cl.n i, d s v ≤ 2 * (e * D) := by
    intro v hv
    by_cases hvc : v ∈ core i
    · linarith [hcd v hvc]
    · obtain ⟨-, hvP, x, hx, a, hxa, hal, -, -, hle, -⟩ := hcore.other i hi v hv hvc
      have h8 : d v x ≤ e * D := (hf.close hvP (hPn v hvP)).le_near he hD hal hxa fun y hy hya => hle x hxa y (List.mem_range.1 hy) hya
      rw [hd.symm] at h8
      linarith [hd.triangle s x v, hcd x hx]
  have h8 := key u hu
  rw [hd.symm] at h8
  linarith [hd.triangle u s v, key v hv]

/-- C75, pairs. Under the conditions of C44, two points of a cluster are at most `2 e D` apart, when every point has another point within `D`. -/
theorem C75_inwards_pairs {cfg : Cfg} {spi : Spi F} {d : Nat → Nat → K} (hd : Metric d) {e : K} (he : 1 ≤ e) {within : Nat → Nat → F → Prop} {dist : Nat → Nat → F} {mayRefuse : Prop} {o : Options F} {ob : ClObj}
    (hs : SpiOk spi ob.cl.n (NearestUpTo e d within) dist mayRefuse) {P : List Nat} {lab c : Nat → Nat} {w : World} (hc : CallOk cfg o ob P lab c w) (hm : o.seedMethod = .method .inwardsUpdating)
    (hS : o.sizeConstraint = 2) (ht : o.numTypes < 2) (hp : o.primary = none) (hR : o.seedRadius = .noRadius) (hum : o.primaryMethod = .anyNeighbor) (hum2 : o.secondaryMethod = .ignore)
    {D : K} (hD : ∀ v, v < ob.cl.n → ∃ x, x < ob.cl.n ∧ x ≠ v ∧ d v x ≤ D) :
    OnSuccess cfg spi o ob w fun k b => ∀ i, i < k → ∀ u ∈ members b ob.cl.n i, ∀ v ∈ members b ob.cl.n i, d u v ≤ 2 * e * D := by
  refine onSuccess_of_run hs hc hm fun rows order L2 L3 L k l hv h => ?_
  have hP : P = List.range ob.cl.n := hc.arrays.all hp
  have hDpos : ∀ v, v < ob.cl.n → 0 ≤ D := fun v hvn => by
    obtain ⟨x, -, -, hx⟩ := hD v hvn
    exact (hd.nonneg v x).trans hx
  have harc : ∀ v, v < ob.cl.n → ∀ x ∈ rows v, d v x ≤ e * D := by
    intro v hvn x hx
    refine (h.arc_le_near he (hDpos v hvn) (fun v hvP => ?_) (fun h2 => by omega) v hvn x hx).2
    have hvn := hc.arrays.range v hvP
    obtain ⟨x, hx1, hx2, hx3⟩ := hD v hvn
    refine ⟨[v, x], by simp [hx2.symm], by intro y hy; simp at hy; rw [List.mem_range]; omega, ?_, by simp [hS]⟩
    intro y hy
    rcases List.mem_cons.1 hy with rfl | hy
    · rw [hd.self]; exact hDpos y hvn
    · rw [List.mem_singleton.1 hy]; exact hx3
  have h1 := h.inwards_pairs hd hc.config hP hS ht hR hum hum2 (fun v hvn => mul_nonneg (zero_le_one.trans he) (hDpos v hvn)) harc
  intro i hi u hu v hv'
  have := h1 i hi u hu v hv'
  rwa [nsmul_eq_mul, ← mul_assoc, Nat.cast_ofNat] at this

/-! ### The hypotheses hold for a back end that measures positions roughly -/

/-- Positions of six points. The points of `lineData` are these positions in units of ten, rounded. -/
def fineAt (i : Nat) : Int := [0, 10, 34, 66, 82, 199].getD i 0

/-- Distance of the positions. -/
def fineD (i j : Nat) : Int := |fineAt i - fineAt j|

theorem fineD_metric : Metric fineD where
  self x := by simp [fineD]
  symm x y := abs_sub_comm _ _
  triangle x y z := abs_sub_le _ _ _

theorem fine_near : ∀ q, q < 6 → ∀ x, x < 6 → ∀ y, y < 6 → lineD q x ≤ lineD q y → fineD q x ≤ 2 * fineD q y := by decide

/-- The order of the rough distances is not the order of the distances. -/
theorem fine_differs : ∃ q x y, q < 6 ∧ x < 6 ∧ y < 6 ∧ lineD q x ≤ lineD q y ∧ ¬ fineD q x ≤ fineD q y := ⟨2, 0, 3, by decide⟩

/-- The built-in search in the rounded positions. -/
def roughSpi : SpiOk (builtinSpi (some lineData)) lineObj.cl.n (NearestUpTo 2 fineD lineData.Within) lineData.dist False :=
  builtinSpi_implied intLaws lineData lineData_complete (fun _ _ _ _ => int_isNum _) fun q x y hq hx hy h => fine_near q hq x hx y hy ((lineD_le q x y).1 h)

theorem fine_feasible {o : Options Int} (hS : o.sizeConstraint = 2) (ht : o.numTypes < 2) : Feasible fineD 6 o (List.range 6) (fun _ => 0) (fun _ => 0) 133 (fun v => some (v / 3)) where
  assigned := nofun
  size := by rw [hS]; decide
  types h := by omega
  diameter u v hu hv _ h := (by decide : ∀ u, u < 6 → ∀ v, v < 6 → some (u / 3) = some (v / 3) → fineD u v ≤ 133) u hu v hv h

example : OnSuccess sampleCfg (builtinSpi (some lineData)) (lineOpts .closestSeed .noRadius 0) lineObj (sampleWorld [5])
    fun k b => ∀ i, i < k → ∀ u ∈ members b 6 i, ∀ v ∈ members b 6 i, fineD u v ≤ 4 * 2 ^ 2 * 133 ∧
      ((lineOpts .closestSeed .noRadius 0).primaryMethod ≠ .closestAssigned → (lineOpts .closestSeed .noRadius 0).primaryMethod ≠ .closestSeed → fineD u v ≤ 4 * 2 * 133) :=
  C75_near_neighbours fineD_metric (by decide) roughSpi (line_call _ _ _) rfl (fun _ => rfl) rfl (fine_feasible rfl (by decide))

example : OnSuccess sampleCfg (builtinSpi (some lineData)) (batchOpts .anyNeighbor 4) lineObj (sampleWorld [5])
    fun k b => ∀ i, i < k → ∀ u ∈ members b 6 i, ∀ v ∈ members b 6 i, fineD u v ≤ 4 * 2 * 133 :=
  C75_near_neighbours_batches fineD_metric (by decide) roughSpi (batch_call _ _) rfl (batch_fits _ _) (fine_feasible rfl (by decide))

example : OnSuccess sampleCfg (builtinSpi (some lineData)) { (defaultOptions : Options Int) with sizeConstraint := 2, seedMethod := .method .inwardsUpdating } lineObj (sampleWorld [5])
    fun k b => ∀ i, i < k → ∀ u ∈ members b 6 i, ∀ v ∈ members b 6 i, fineD u v ≤ 2 * 2 * 117 := by
  refine C75_inwards_pairs fineD_metric (by decide) roughSpi (P := List.range 6) (lab := fun _ => 0) (c := fun _ => 0) ?_ rfl rfl (by decide) rfl rfl rfl rfl (by decide)
  exact line_callOk ⟨fun _ => rfl, nofun, fun x hx => List.mem_range.1 hx, nofun, nofun⟩ ⟨by decide, fun h => absurd h (by decide)⟩

end Scc
