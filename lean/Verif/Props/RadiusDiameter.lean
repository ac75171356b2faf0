/-
C77: with radii, clusters have a bounded diameter.
-/
import Verif.Props.NearApprox
import Verif.Props.Hierarchical

set_option linter.unusedSimpArgs false
set_option linter.unusedVariables false

namespace Scc

variable {F : Type} [FloatOps F] {K : Type} [CommRing K] [LinearOrder K] [IsStrictOrderedRing K]

/-- Points within the radius `r` are not farther apart than `R`. -/
def RadiusIs (d : Nat → Nat → K) (within : Nat → Nat → F → Prop) (n : Nat) (r : F) (R : K) : Prop := ∀ q x, q < n → x < n → within q x r → d q x ≤ R

/-- The radius that applies to an assignment stage is the seed radius, or a supplied radius that is at most `R`. -/
def StageRadiusIs (d : Nat → Nat → K) (within : Nat → Nat → F → Prop) (n : Nat) (rm : RadiusMethod) (r : F) (R : K) : Prop := rm = .useSeedRadius ∨ rm = .useSupplied ∧ RadiusIs d within n r R

/-- C77. There is a seed radius, the radii of the stages that assign the remaining points by search are set, and none of them is larger than `R`. Then no two points of a cluster are farther apart than `4 R`. If no points
are assigned after the seeds, they are not farther apart than `2 R`. This holds whether or not the points of answers are nearest ones. -/
theorem C77_radius_diameter {cfg : Cfg} {spi : Spi F} {d : Nat → Nat → K} (hd : Metric d) {le : Nat → Nat → Nat → Prop} {within : Nat → Nat → F → Prop} {dist : Nat → Nat → F} {mayRefuse : Prop} {o : Options F} {ob : ClObj}
    (hs : SpiOk spi ob.cl.n (Nearest le within) dist mayRefuse) {P : List Nat} {lab c : Nat → Nat} {w : World} (hc : CallOk cfg o ob P lab c w) {m : SeedMethod} (hm : o.seedMethod = .method m)
    {R : K} (hr : o.seedRadius = .useSupplied) (hR : RadiusIs d within ob.cl.n o.seedSupplied R)
    (h1 : o.primaryMethod = .closestAssigned ∨ o.primaryMethod = .closestSeed → StageRadiusIs d within ob.cl.n o.primaryRadius o.primarySupplied R)
    (h2 : o.secondaryMethod ≠ .ignore → StageRadiusIs d within ob.cl.n o.secondaryRadius o.secondarySupplied R) :
    OnSuccess cfg spi o ob w fun k b => ∀ i, i < k → ∀ u ∈ members b ob.cl.n i, ∀ v ∈ members b ob.cl.n i, d u v ≤ 4 * R ∧
      (o.primaryMethod = .ignore → o.secondaryMethod = .ignore → d u v ≤ 2 * R) := by
  refine onSuccess_of_run hs hc hm fun rows order L2 L3 L k l hv h => ?_
  have hlim : seedLimit o = some o.seedSupplied := by simp [seedLimit, hr]
  have harc : ∀ v, v < ob.cl.n → ∀ x ∈ rows v, x < ob.cl.n → d v x ≤ R := by
    intro v hvn x hx hxn
    refine hR v x hvn hxn ?_
    obtain ⟨rows₀, hn₀, he⟩ := h.nng
    rw [he, mem_stored] at hx
    rcases hn₀ with ⟨-, ans, h1, h2⟩ | ⟨-, h1⟩
    · rw [h2 v hvn] at hx
      have hx' := nbrs_subset hx
      cases hav : ans v with
      | none => simp [ansRows, hav] at hx'
      | some a =>
        simp only [ansRows, hav, Option.getD_some] at hx'
        have hvP : v ∈ P := by
          by_contra hvP
          rw [h1.none_of v hvP] at hav; cases hav
        have hcr := h1.crit v hvP
        rw [hav] at hcr
        exact hcr.1 _ hlim x hx'
    · rcases h1.row v hvn with h0 | ⟨-, W, hW, hrow⟩
      · rw [h0] at hx; simp at hx
      · rw [hrow] at hx
        obtain ⟨hxW, hxv⟩ := mem_firstOcc.1 hx
        obtain ⟨a, hxa, ⟨hA, -⟩ | ⟨t, -, hA, -⟩⟩ := hW.from_answer x hxW (by simpa using hxv)
        · exact hA.1 _ hlim x hxa
        · exact hA.1 _ hlim x hxa
  have hsok := h.seedsOk hv.size_two
  have hcapn : ∀ i x, CapturedBy rows (greedySeeds rows order) i x → x < ob.cl.n := fun i x hx => (h.captured hc.config hv.size_two hx).1
  intro i hi u hu v hv'
  obtain ⟨s, hs1, hs2, hs3⟩ := h.seed_of_lt hv.size_two hi
  have hcap : ∀ x, x ∈ rows s → x < ob.cl.n := fun x hx => hcapn i x ⟨s, hs1, by simp [closedNbr, hx]⟩
  have hR0 : 0 ≤ R := by
    obtain ⟨x, hx⟩ := List.exists_mem_of_ne_nil _ hs3
    exact (hd.nonneg s x).trans (harc s hs2 x hx (hcap x hx))
  have hcapd : ∀ x, CapturedBy rows (greedySeeds rows order) i x → d s x ≤ R := by
    rintro x ⟨s', h3, h4⟩
    rw [hs1] at h3; cases h3
    rcases List.mem_cons.1 h4 with rfl | h4
    · rw [hd.self]; exact hR0
    · exact harc s hs2 x h4 (hcap x h4)
  have hvia : ∀ x v, CapturedBy rows (greedySeeds rows order) i x → d v x ≤ R → d s v ≤ 2 * R := fun x v h3 h4 => by
    rw [hd.symm] at h4
    linarith [hd.triangle s x v, hcapd x h3]
  -- a point found by search within the radius of a stage
  have hsearch : ∀ (um : UnassignedMethod) (rm : RadiusMethod) (r est : F) (v : Nat), v < ob.cl.n → StageRadiusIs d within ob.cl.n rm r R →
      SearchRule (Nearest le within) ob.cl.n rows (greedySeeds rows order) um (stageRadius o um rm r est) v i → d s v ≤ 2 * R := by
    intro um rm r est v hvn hst hrule
    have hrad : ∀ x, x < ob.cl.n → um ≠ .ignore → (∀ r', stageRadius o um rm r est = some r' → within v x r') → d v x ≤ R := by
      intro x hxn hum hw
      rcases hst with rfl | ⟨rfl, hr2⟩
      · refine hR v x hvn hxn (hw _ ?_)
        cases um <;> simp_all [stageRadius]
      · refine hr2 v x hvn hxn (hw _ ?_)
        cases um <;> simp_all [stageRadius]
    rcases hrule with ⟨h3, x, hx1, hx2⟩ | ⟨h3, s', hs1', hs2'⟩
    · exact hvia x v hx1 (hrad x (hcapn i x hx1) (by rw [h3]; nofun) fun r' hr' => hx2.1 r' hr' x (by simp))
    · rw [hs1] at hs1'; cases hs1'
      have := hrad s hs2 (by rw [h3]; nofun) fun r' hr' => hs2'.1 r' hr' s (by simp)
      rw [hd.symm]
      linarith
  have key : ∀ v ∈ members l ob.cl.n i, d s v ≤ 2 * R ∧ (o.primaryMethod = .ignore → o.secondaryMethod = .ignore → d s v ≤ R) := by
    intro v hmem
    obtain ⟨hvn, hget⟩ := mem_members.1 hmem
    have hL := (h.labels.get_eq hc.config (h.lt hv.size_two) h.cap hvn hi).1 hget
    rcases h.rule hv.size_two hvn hL with h3 | ⟨-, ⟨hvP, hu, x, hx1, hx2⟩ | ⟨hvP, h3⟩ | h3⟩
    · exact ⟨by linarith [hcapd v h3], fun _ _ => hcapd v h3⟩
    · refine ⟨hvia x v hx2 (harc v hvn x (List.mem_of_find?_eq_some hx1) (hcapn i x hx2)), fun h4 => ?_⟩
      rcases hu with h5 | ⟨-, h5⟩ <;> rw [h4] at h5 <;> cases h5
    · refine ⟨hsearch _ _ _ _ v hvn (h1 ?_) h3, fun h4 => ?_⟩
      · rcases h3 with ⟨h3, -⟩ | ⟨h3, -⟩
        · exact Or.inl h3
        · exact Or.inr h3
      · rcases h3 with ⟨h3, -⟩ | ⟨h3, -⟩ <;> rw [h4] at h3 <;> cases h3
    · refine ⟨hsearch _ _ _ _ v hvn (h2 ?_) h3, fun _ h4 => ?_⟩
      · rcases h3 with ⟨h3, -⟩ | ⟨h3, -⟩ <;> rw [h3] <;> nofun
      · rcases h3 with ⟨h3, -⟩ | ⟨h3, -⟩ <;> rw [h4] at h3 <;> cases h3
  have ku := key u hu
  have kv := key v hv'
  rw [hd.symm] at ku
  have ht := hd.triangle u s v
  exact ⟨by linarith [ku.1, kv.1], fun h3 h4 => by linarith [ku.2 h3 h4, kv.2 h3 h4]⟩

/-- C77 for batches. -/
theorem C77_radius_diameter_batches {cfg : Cfg} {spi : Spi F} {d : Nat → Nat → K} (hd : Metric d) {le : Nat → Nat → Nat → Prop} {within : Nat → Nat → F → Prop} {dist : Nat → Nat → F} {mayRefuse : Prop} {o : Options F} {ob : ClObj}
    (hs : SpiOk spi ob.cl.n (Nearest le within) dist mayRefuse) {P : List Nat} {lab c : Nat → Nat} {w : World} (hc : CallOk cfg o ob P lab c w) (hm : o.seedMethod = .batches)
    (hfit : BatchFits o ob.cl.n) (hself : cfg.stableNng = true → ∀ s < ob.cl.n, ∀ x < ob.cl.n, ∀ y < ob.cl.n, le s x s → le s x y)
    {R : K} (hr : o.seedRadius = .useSupplied) (hR : RadiusIs d within ob.cl.n o.seedSupplied R) (hR0 : 0 ≤ R) :
    OnSuccess cfg spi o ob w fun k b => ∀ i, i < k → ∀ u ∈ members b ob.cl.n i, ∀ v ∈ members b ob.cl.n i, d u v ≤ 4 * R ∧
      (o.primaryMethod = .ignore → d u v ≤ 2 * R) := by
  obtain ⟨e', p, w', h1, h2⟩ := C45_batch_clusters hs hc hm hfit hself
  refine ⟨e', p, w', h1, fun he' => ?_⟩
  obtain ⟨hfl, cl, b, h3, h4, h5, h6, h7, core, hcore⟩ := h2 he'
  refine ⟨hfl, cl, b, h3, h4, h5, h6, h7, ?_⟩
  intro i hi u hu v hv
  have hPn : ∀ v ∈ P, v < ob.cl.n := hc.arrays.range
  obtain ⟨s, hsP, hsc, hlen, hnd, hmem, hnear⟩ := hcore.seed i hi
  have hcd : ∀ x ∈ core i, d s x ≤ R := by
    intro x hx
    by_cases hxs : x = s
    · rw [hxs, hd.self]; exact hR0
    · exact hR s x (hPn s hsP) (hmem x hx).1 ((hnear x hx hxs).2 hr)
  have key : ∀ v ∈ members b.buf ob.cl.n i, d s v ≤ 2 * R ∧ (o.primaryMethod = .ignore → d s v ≤ R) := by
    intro v hv
    by_cases hvc : v ∈ core i
    · exact ⟨by linarith [hcd v hvc], fun _ => hcd v hvc⟩
    · obtain ⟨h8, hvP, x, hx, a, hxa, hal, -, han, hle, hrad⟩ := hcore.other i hi v hv hvc
      have h9 : d v x ≤ R := hR v x (hPn v hvP) (han x hxa) (hrad hr x hxa)
      rw [hd.symm] at h9
      exact ⟨by linarith [hd.triangle s x v, hcd x hx], fun h => by rw [h] at h8; cases h8⟩
  have ku := key u hu
  have kv := key v hv
  rw [hd.symm] at ku
  have ht := hd.triangle u s v
  exact ⟨by linarith [ku.1, kv.1], fun h3 => by linarith [ku.2 h3, kv.2 h3]⟩

/-! ### The hypotheses hold for points on the line with a radius -/

theorem line_radius {r : Int} (hr : 0 ≤ r) : RadiusIs lineD lineData.Within 6 r r := by
  intro q x hq hx hw
  unfold DataSet.Within at hw
  have h1 : ¬ r * r < lineData.sqd q x := of_decide_eq_false hw
  have h2 : lineData.sqd q x = (lineData.coord q 0 - lineData.coord x 0) * (lineData.coord q 0 - lineData.coord x 0) := zero_add _
  rw [h2] at h1
  unfold lineD
  rw [not_lt] at h1
  exact (abs_le_abs_of_sq_le_sq' h1 hr)
where
  abs_le_abs_of_sq_le_sq' {a b : Int} (h : a * a ≤ b * b) (hb : 0 ≤ b) : |a| ≤ b := by
    rw [← abs_of_nonneg hb]
    exact abs_le_abs_of_sq_le_sq (by rwa [pow_two, pow_two])
  abs_le_abs_of_sq_le_sq {a b : Int} (h : a ^ 2 ≤ b ^ 2) : |a| ≤ |b| := sq_le_sq.1 h

example : OnSuccess sampleCfg (builtinSpi (some lineData)) (radiusOpts 2) lineObj (sampleWorld [5])
    fun k b => ∀ i, i < k → ∀ u ∈ members b 6 i, ∀ v ∈ members b 6 i, lineD u v ≤ 4 * 2 ∧ ((radiusOpts 2).primaryMethod = .ignore → (radiusOpts 2).secondaryMethod = .ignore → lineD u v ≤ 2 * 2) :=
  C77_radius_diameter lineD_metric lineSpi_nearest (line_callOk (radiusOpts_arrays 2) ⟨by decide, fun h => absurd h (by decide)⟩) (m := .lexical) rfl rfl (line_radius (by decide))
    (fun _ => Or.inl rfl) (fun h => absurd rfl h)

/-- All points may join the cluster of the closest seed, primary points within the seed radius, the others within the radius 1. -/
def twoRadii : Options Int := { (primaryOpts .closestSeed) with primaryMethod := .closestSeed, seedRadius := .useSupplied, seedSupplied := 2, secondaryRadius := .useSupplied, secondarySupplied := 1 }

example : hiSummary (scClustering sampleCfg (builtinSpi (some lineData)) twoRadii (some lineObj) (sampleWorld [5])) = some (.ok, 2, [some 0, some 0, some sampleCfg.na, some 1, some 1, some sampleCfg.na]) := by decide +kernel

theorem twoRadii_callOk : CallOk sampleCfg twoRadii lineObj [0, 2, 3] (fun _ => 0) (fun _ => 0) (sampleWorld [5]) := by
  have h := primaryOpts_arrays .closestSeed
  refine line_callOk ⟨nofun, ?_, h.range, ?_, ?_⟩ ⟨by show 6 * 2 ≤ 2 ^ 64 - 1; decide, fun h => absurd h (by show ¬ 2 ≤ 0; decide)⟩
  · exact fun b hb => h.primary b hb
  · intro b hb; exact absurd hb (by show ¬ 2 ≤ 0; decide)
  · intro b hb; exact absurd hb (by show ¬ 2 ≤ 0; decide)

example : OnSuccess sampleCfg (builtinSpi (some lineData)) twoRadii lineObj (sampleWorld [5])
    fun k b => ∀ i, i < k → ∀ u ∈ members b 6 i, ∀ v ∈ members b 6 i, lineD u v ≤ 4 * 2 ∧ (twoRadii.primaryMethod = .ignore → twoRadii.secondaryMethod = .ignore → lineD u v ≤ 2 * 2) :=
  C77_radius_diameter lineD_metric lineSpi_nearest twoRadii_callOk (m := .lexical) rfl rfl (line_radius (r := 2) (by decide))
    (fun _ => Or.inl rfl) (fun _ => Or.inr ⟨rfl, fun q x hq hx hw => (line_radius (r := 1) (by decide) q x hq hx hw).trans (by decide)⟩)

/-- Clusters in batches of three points, with a seed radius of 2. -/
def batchRadius : Options Int := { (defaultOptions : Options Int) with sizeConstraint := 2, seedMethod := .batches, batchSize := 3, seedRadius := .useSupplied, seedSupplied := 2 }

example : hiSummary (scClustering sampleCfg (builtinSpi (some lineData)) batchRadius (some lineObj) (sampleWorld [5])) = some (.ok, 2, [some 0, some 0, some 0, some 1, some 1, some sampleCfg.na]) := by decide +kernel

theorem batchRadius_callOk : CallOk sampleCfg batchRadius lineObj (List.range 6) (fun _ => 0) (fun _ => 0) (sampleWorld [5]) := by
  refine line_callOk ⟨fun _ => rfl, ?_, fun x hx => List.mem_range.1 hx, ?_, ?_⟩ ⟨by show 6 * 2 ≤ 2 ^ 64 - 1; decide, fun h => absurd h (by show ¬ 2 ≤ 0; decide)⟩
  · intro b hb; cases hb
  · intro b hb; cases hb <;> contradiction
  · intro b hb; cases hb <;> contradiction

example : OnSuccess sampleCfg (builtinSpi (some lineData)) batchRadius lineObj (sampleWorld [5])
    fun k b => ∀ i, i < k → ∀ u ∈ members b 6 i, ∀ v ∈ members b 6 i, lineD u v ≤ 4 * 2 ∧ (batchRadius.primaryMethod = .ignore → lineD u v ≤ 2 * 2) :=
  C77_radius_diameter_batches lineD_metric lineSpi_nearest batchRadius_callOk rfl (by show 2 * 3 < 2 ^ 32; decide) (fun h => nomatch h) rfl (line_radius (r := 2) (by decide)) (by decide)

end Scc
