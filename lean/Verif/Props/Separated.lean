/-
Property C64: `scc_sc_clustering` does not mix groups of points that are far from each other. The specification is in Spec/Separated.lean.
-/
import Verif.Spec.Separated
import Verif.Props.StableNng

set_option linter.unusedVariables false

namespace Scc

variable {F : Type} [FloatOps F]

omit [FloatOps F] in
/-- The nearest points are of the same group if there are enough of them. -/
theorem nearest_group {le : Nat → Nat → Nat → Prop} {n q : Nat} {g : Nat → Nat} {set l : List Nat} (hsep : Separated le n g) (hq : q < n) (hset : ∀ x ∈ set, x < n) (hnd : set.Nodup)
    (hl : l ⊆ set) (hlnd : l.Nodup) (hle : ∀ x ∈ l, g x ≠ g q → ∀ y ∈ set, y ∉ l → le q x y) (hbig : l.length ≤ (set.filter fun x => g x = g q).length) : ∀ x ∈ l, g x = g q := by
  intro x hx
  by_contra hne
  have hall : ∀ y ∈ set, g y = g q → y ∈ l.erase x := by
    intro y hy hgy
    have hyl : y ∈ l := by
      by_contra h
      exact hsep q y x hq (hset y hy) (hset x (hl hx)) hgy hne (hle x hx hne y hy h)
    exact (List.mem_erase_of_ne fun h : y = x => hne (h ▸ hgy)).2 hyl
  have hsub : (set.filter fun x => g x = g q) ⊆ l.erase x := fun y hy => by
    obtain ⟨h1, h2⟩ := List.mem_filter.1 hy
    exact hall y h1 (by simpa using h2)
  have h1 := ((hnd.filter _).subperm hsub).length_le
  rw [List.length_erase_of_mem hx] at h1
  have := List.length_pos_of_mem hx
  omega

theorem filter_typeGroup_length {n : Nat} {g lab : Nat → Nat} {t q : Nat} : ((typeGroup n lab t).filter fun x => g x = g q).length = (groupOf n g q).countP fun x => lab x = t := by
  unfold typeGroup groupOf
  rw [List.filter_reverse, List.length_reverse, List.countP_eq_length_filter, List.filter_filter, List.filter_filter]
  congr 1
  exact List.filter_congr fun x _ => by rw [Bool.and_comm]

omit [FloatOps F] in
theorem NngStored.mono {cfg : Cfg} {A B : Criterion F} {n : Nat} {o : Options F} {P : List Nat} {lab c : Nat → Nat} {rows : Nat → List Nat} (h : NngStored cfg A n o P lab c rows)
    (hab : ∀ set k R q a, A set k R q a → B set k R q a) : NngStored cfg B n o P lab c rows := by
  obtain ⟨rows₀, hn, he⟩ := h
  refine ⟨rows₀, ?_, he⟩
  rcases hn with ⟨h0, ans, h1, h2⟩ | ⟨h0, h1⟩
  · exact .inl ⟨h0, ans, { h1 with crit := fun v hv => hab _ _ _ _ _ (h1.crit v hv) }, h2⟩
  · refine .inr ⟨h0, fun v hv => (h1.row v hv).imp_right ?_, fun v hv h0 => ⟨(h1.infeasible v hv h0).1, (h1.infeasible v hv h0).2.imp (fun h => ⟨h.1, hab _ _ _ _ _ h.2⟩) ?_⟩, fun v hv h0 => ?_⟩
    · rintro ⟨hvP, W, hW, hr⟩
      refine ⟨hvP, W, { hW with from_answer := fun x hx hxv => ?_ }, hr⟩
      obtain ⟨l, hxl, ⟨hA, hl⟩ | ⟨t, ht, hA, hl⟩⟩ := hW.from_answer x hx hxv
      · exact ⟨l, hxl, .inl ⟨hab _ _ _ _ _ hA, hl⟩⟩
      · exact ⟨l, hxl, .inr ⟨t, ht, hab _ _ _ _ _ hA, hl⟩⟩
    · rintro ⟨t, ht, hp, hA⟩
      exact ⟨t, ht, hp, hab _ _ _ _ _ hA⟩
    · obtain ⟨W, ⟨a, k1, k2⟩, k3⟩ := h1.takes v hv h0
      refine ⟨W, ⟨a, fun t ht hc => ⟨hab _ _ _ _ _ (k1 t ht hc).1, (k1 t ht hc).2⟩, k2.imp_right ?_⟩, k3⟩
      rintro ⟨g1, g, g2, g3⟩
      exact ⟨g1, g, hab _ _ _ _ _ g2, g3⟩

omit [FloatOps F] in
/-- Arcs stay in the group. -/
theorem rows_group {cfg : Cfg} {le : Nat → Nat → Nat → Prop} {within : Nat → Nat → F → Prop} {n : Nat} {o : Options F} {P : List Nat} {lab c : Nat → Nat} {g : Nat → Nat} {rows : Nat → List Nat}
    (hsep : Separated le n g) (hbig : GroupsLarge n o P lab c g) (h : NngStored cfg (Strict n (Nearest le within)) n o P lab c rows) {v x : Nat} (hv : v < n) (hx : x ∈ rows v) : g x = g v := by
  obtain ⟨rows₀, hn, he⟩ := h
  rw [he, mem_stored] at hx
  have key : ∀ {set l : List Nat} {k : Nat}, Strict n (Nearest le within) set k (seedLimit o) v (some l) → k ≤ (set.filter fun x => g x = g v).length → x ∈ l → g x = g v := by
    rintro set l k ⟨h1, h2, h3, h4, h5⟩ hk hxl
    obtain ⟨w1, w2, w3⟩ := h2.2 l rfl
    exact nearest_group hsep h5 h4 h3 w3 w2 (fun x hx _ => h1.2.2 x hx) (by rw [w1]; exact hk) x hxl
  rcases hn with ⟨-, ans, h1, h2⟩ | ⟨ht, h1⟩
  · rw [h2 v hv] at hx
    have hxa := nbrs_subset hx
    unfold ansRows at hxa
    cases hav : ans v with
    | none => rw [hav] at hxa; cases hxa
    | some l =>
      rw [hav] at hxa
      have hvP : v ∈ P := by
        by_contra hc
        rw [h1.none_of v hc] at hav; cases hav
      have hcr := h1.crit v hvP
      rw [hav] at hcr
      exact key hcr (hbig v hvP).1 hxa
  · rcases h1.row v hv with h0 | ⟨hvP, W, hW, hr⟩
    · rw [h0] at hx; cases hx
    · rw [hr] at hx
      obtain ⟨hxW, hxv⟩ := mem_firstOcc.1 hx
      obtain ⟨l, hxl, ⟨hA, -⟩ | ⟨t, ht', hA, -⟩⟩ := hW.from_answer x hxW (by simpa using hxv)
      · exact key hA (hbig v hvP).1 hxl
      · exact key hA (by rw [filter_typeGroup_length]; exact (hbig v hvP).2 ht t ht') hxl

omit [FloatOps F] in
theorem capturedBy_group {cfg : Cfg} {le : Nat → Nat → Nat → Prop} {within : Nat → Nat → F → Prop} {n : Nat} {o : Options F} {P : List Nat} {lab c : Nat → Nat} {g : Nat → Nat} {rows : Nat → List Nat}
    (hsep : Separated le n g) (hbig : GroupsLarge n o P lab c g) (h : NngStored cfg (Strict n (Nearest le within)) n o P lab c rows) {seeds : List Nat} (hseeds : ∀ s ∈ seeds, s < n) {i x : Nat}
    (hx : CapturedBy rows seeds i x) : ∃ s, seeds[i]? = some s ∧ g x = g s := by
  obtain ⟨s, hs, hx⟩ := hx
  refine ⟨s, hs, ?_⟩
  rcases List.mem_cons.1 hx with rfl | hx
  · rfl
  · exact rows_group hsep hbig h (hseeds s (List.mem_of_getElem? hs)) hx

/-- C64, with a seed radius. All members of a cluster whose group has a seed are of the group of the seed of the cluster. -/
theorem C64_groups_of_seeds {cfg : Cfg} {spi : Spi F} {le : Nat → Nat → Nat → Prop} {within : Nat → Nat → F → Prop} {dist : Nat → Nat → F} {mayRefuse : Prop} {o : Options F} {ob : ClObj}
    (hs : SpiOk spi ob.cl.n (Nearest le within) dist mayRefuse) {P : List Nat} {lab c : Nat → Nat} {w : World} (hc : CallOk cfg o ob P lab c w) {m : SeedMethod} (hm : o.seedMethod = .method m)
    {g : Nat → Nat} (hsep : Separated le ob.cl.n g) (hbig : GroupsLarge ob.cl.n o P lab c g) (hrefl : ∀ q < ob.cl.n, ∀ x < ob.cl.n, le q x x) :
    OnSuccess cfg spi o ob w fun k b => ∃ N seeds, SeedClusters cfg (Nearest le within) ob.cl.n o P lab c k b N seeds ∧
      (∀ i s, seeds[i]? = some s → ∀ v ∈ members b ob.cl.n i, (∃ s' ∈ seeds, g s' = g v) → g v = g s) ∧ (seedLimit o = none → ∀ v ∈ P, ∃ s ∈ seeds, g s = g v) := by
  have hmono : ∀ {k : Nat} {b : Buf Int} {N : Nat → List Nat} {seeds : List Nat}, SeedClusters cfg (Strict ob.cl.n (Nearest le within)) ob.cl.n o P lab c k b N seeds →
      SeedClusters cfg (Nearest le within) ob.cl.n o P lab c k b N seeds :=
    fun h => ⟨h.neighbourhoods.mono fun _ _ _ _ _ hA => hA.1, h.count, h.primary, h.captured, h.distinct⟩
  refine onSuccess_of_run hs.strict hc hm fun rows order L2 L3 L k l hv h => ⟨rows, greedySeeds rows order, hmono (h.seedClusters hc.config hv.size_two), fun i s hs v hvm hvs => ?_, fun hR v hvP => ?_⟩
  all_goals
    have hsok := h.seedsOk hv.size_two
    have hcg : ∀ {j x : Nat}, CapturedBy rows (greedySeeds rows order) j x → ∃ s, (greedySeeds rows order)[j]? = some s ∧ g x = g s :=
      fun hx => capturedBy_group hsep hbig h.nng hsok.range hx
  · obtain ⟨hvn, hget⟩ := mem_members.1 hvm
    have hik : i < k := by
      rw [h.count]
      exact (List.getElem?_eq_some_iff.1 hs).1
    have hL : L v = some i := (h.labels.get_eq hc.config (h.lt hv.size_two) h.cap hvn hik).1 hget
    have hsearch : ∀ {um : UnassignedMethod} {R : Option F}, SearchRule (Strict ob.cl.n (Nearest le within)) ob.cl.n rows (greedySeeds rows order) um R v i → g v = g s := by
      obtain ⟨s', hs'm, hs'⟩ := hvs
      rintro um R (⟨-, x, hx, hA⟩ | ⟨-, s'', hs'', hA⟩)
      · obtain ⟨j, hj⟩ := List.mem_iff_getElem?.1 hs'm
        have hs'l : s' ∈ labelled ob.cl.n (seedLab rows (greedySeeds rows order)) :=
          mem_labelled.2 ⟨hsok.range s' hs'm, by rw [hsok.seedLab hj (by simp [closedNbr])]; rfl⟩
        obtain ⟨s2, hs2, hgx⟩ := hcg hx
        rw [hs, Option.some.injEq] at hs2
        subst hs2
        by_contra hne
        have hle : le v x s' := by
          by_cases he : s' = x
          · rw [he]; exact hrefl v hvn x (h.captured hc.config hv.size_two hx).1
          · exact hA.1.2.2 x (by simp) s' hs'l (by simpa using he)
        exact hsep v s' x hvn (hsok.range s' hs'm) (h.captured hc.config hv.size_two hx).1 hs' (fun hh => hne (hh.symm.trans hgx)) hle
      · rw [hs, Option.some.injEq] at hs''
        subst hs''
        by_contra hne
        have hle : le v s s' := by
          by_cases he : s' = s
          · rw [he]; exact hrefl v hvn s (hsok.range s (List.mem_of_getElem? hs))
          · exact hA.1.2.2 s (by simp) s' hs'm (by simpa using he)
        exact hsep v s' s hvn (hsok.range s' hs'm) (hsok.range s (List.mem_of_getElem? hs)) hs' (fun hh => hne hh.symm) hle
    rcases h.rule hv.size_two hvn hL with hcap | ⟨-, ⟨-, -, x, hx, hcap⟩ | ⟨-, hr⟩ | hr⟩
    · obtain ⟨s2, hs2, hg⟩ := hcg hcap
      rw [hs, Option.some.injEq] at hs2
      rw [hs2]; exact hg
    · obtain ⟨s2, hs2, hg⟩ := hcg hcap
      rw [hs, Option.some.injEq] at hs2
      rw [hs2, ← hg]
      exact (rows_group hsep hbig h.nng hvn (List.mem_of_find?_eq_some hx)).symm
    · exact hsearch hr
    · exact hsearch hr
  · have hvn := hc.arrays.range v hvP
    obtain ⟨x, hx, hxs⟩ := h.near hv.size_two hR hvn hvP
    obtain ⟨j, hj⟩ := Option.isSome_iff_exists.1 hxs
    obtain ⟨s, hs, hg⟩ := hcg ((capturedBy_iff hsok).2 hj)
    refine ⟨s, List.mem_of_getElem? hs, ?_⟩
    rw [← hg]
    rcases List.mem_cons.1 hx with rfl | hx
    · rfl
    · exact rows_group hsep hbig h.nng hvn hx

/-- C64. Without seed radius, if the data fall into groups that are far from each other and each group with a primary point is large enough for a cluster, then no cluster mixes two such groups. This holds
for all seed methods, with and without types, and for all ways to assign the remaining points. -/
theorem C64_not_mixed {cfg : Cfg} {spi : Spi F} {le : Nat → Nat → Nat → Prop} {within : Nat → Nat → F → Prop} {dist : Nat → Nat → F} {mayRefuse : Prop} {o : Options F} {ob : ClObj}
    (hs : SpiOk spi ob.cl.n (Nearest le within) dist mayRefuse) {P : List Nat} {lab c : Nat → Nat} {w : World} (hc : CallOk cfg o ob P lab c w) {m : SeedMethod} (hm : o.seedMethod = .method m)
    (hR : o.seedRadius = .noRadius) {g : Nat → Nat} (hsep : Separated le ob.cl.n g) (hbig : GroupsLarge ob.cl.n o P lab c g) (hrefl : ∀ q < ob.cl.n, ∀ x < ob.cl.n, le q x x) :
    OnSuccess cfg spi o ob w fun k b => NotMixed ob.cl.n P g k b := by
  obtain ⟨e, p, w', h1, h2⟩ := C64_groups_of_seeds hs hc hm hsep hbig hrefl
  refine ⟨e, p, w', h1, fun he => ?_⟩
  obtain ⟨g1, cl, b, g2, g3, g4, g5, g6, N, seeds, g7, g8, g9⟩ := h2 he
  refine ⟨g1, cl, b, g2, g3, g4, g5, g6, fun i hi u hu v hv ⟨p, hp, hpu⟩ ⟨p', hp', hpv⟩ => ?_⟩
  have hR' : seedLimit o = none := by simp [seedLimit, hR]
  have hseed : i < seeds.length := by rw [g7.count]; exact hi
  have hget := List.getElem?_eq_getElem hseed
  obtain ⟨s, hs, hsg⟩ := g9 hR' p hp
  obtain ⟨s', hs', hsg'⟩ := g9 hR' p' hp'
  rw [g8 i _ hget u hu ⟨s, hs, hsg.trans hpu⟩, g8 i _ hget v hv ⟨s', hs', hsg'.trans hpv⟩]

/-- C64 for batches. -/
theorem C64_not_mixed_batches {cfg : Cfg} {spi : Spi F} {le : Nat → Nat → Nat → Prop} {within : Nat → Nat → F → Prop} {dist : Nat → Nat → F} {mayRefuse : Prop} {o : Options F} {ob : ClObj}
    (hs : SpiOk spi ob.cl.n (Nearest le within) dist mayRefuse) {P : List Nat} {lab c : Nat → Nat} {w : World} (hc : CallOk cfg o ob P lab c w) (hm : o.seedMethod = .batches)
    (hfit : BatchFits o ob.cl.n) (hself : cfg.stableNng = true → ∀ s < ob.cl.n, ∀ x < ob.cl.n, ∀ y < ob.cl.n, le s x s → le s x y) {g : Nat → Nat} (hsep : Separated le ob.cl.n g) (hbig : GroupsLarge ob.cl.n o P lab c g) :
    OnSuccess cfg spi o ob w fun k b => ∀ i, i < k → ∀ u ∈ members b ob.cl.n i, ∀ v ∈ members b ob.cl.n i, g u = g v := by
  obtain ⟨e, p, w', h1, h2⟩ := C45_batch_clusters hs hc hm hfit hself
  refine ⟨e, p, w', h1, fun he => ?_⟩
  obtain ⟨g1, cl, b, g2, g3, g4, g5, g6, core, g7⟩ := h2 he
  refine ⟨g1, cl, b, g2, g3, g4, g5, g6, fun i hi => ?_⟩
  obtain ⟨s, hsP, hsc, hlen, hnd, hrange, hnear⟩ := g7.seed i hi
  have hsn := hc.arrays.range s hsP
  have hrng : ∀ {l : List Nat}, (∀ x ∈ l, x < ob.cl.n) → l ⊆ List.range ob.cl.n := fun h x hx => List.mem_range.2 (h x hx)
  have hcore : ∀ x ∈ core i, g x = g s := by
    refine nearest_group hsep hsn (fun x hx => List.mem_range.1 hx) List.nodup_range (hrng fun x hx => (hrange x hx).1) hnd (fun x hx hne y hy hyn => ?_) (by rw [hlen]; exact (hbig s hsP).1)
    exact (hnear x hx fun h => hne (by rw [h])).1 y (List.mem_range.1 hy) hyn
  have key : ∀ v ∈ members b.buf ob.cl.n i, g v = g s := by
    intro v hv
    by_cases hvc : v ∈ core i
    · exact hcore v hvc
    · obtain ⟨-, hvP, x, hx, a, hxa, hal, hand, har, hale, -⟩ := g7.other i hi v hv hvc
      rw [← hcore x hx]
      exact (nearest_group hsep (hc.arrays.range v hvP) (fun x hx => List.mem_range.1 hx) List.nodup_range (hrng har) hand (fun y hy _ z hz hzn => hale y hy z (List.mem_range.1 hz) hzn)
        (by rw [hal]; exact (hbig v hvP).1) x hxa).symm
  exact fun u hu v hv => (key u hu).trans (key v hv).symm

/-! ### Examples -/

/-- Seven points on a line. The points with even index are far from those with odd index. -/
def twoData : DataSet Int := mkData 1 [0, 20, 1, 22, 3, 23, 2]

def two_nearest : SpiOk (builtinSpi (some twoData)) 7 (Nearest twoData.NoFarther twoData.Within) twoData.dist False :=
  builtinSpi_nearest intLaws twoData (mkData_complete (by decide)) fun _ _ _ _ => int_isNum _

theorem two_separated : Separated twoData.NoFarther 7 fun v => v % 2 := by
  have h : ∀ q < 7, ∀ x < 7, ∀ y < 7, x % 2 = q % 2 ∧ y % 2 ≠ q % 2 → twoData.sqd q x < twoData.sqd q y := by decide +kernel
  exact fun q x y hq hx hy h1 h2 => by simpa [DataSet.NoFarther, FloatOps.le] using h q hq x hx y hy ⟨h1, h2⟩

theorem two_large {o : Options Int} (hS : o.sizeConstraint = 3) (hT : o.numTypes = 0) (lab c : Nat → Nat) : GroupsLarge 7 o (List.range 7) lab c fun v => v % 2 := by
  intro q hq
  refine ⟨?_, fun h => absurd h (by omega)⟩
  rw [hS]
  exact (by decide : ∀ q ∈ List.range 7, 3 ≤ (groupOf 7 (fun v => v % 2) q).length) q hq

theorem int_noFarther (ds : DataSet Int) (q x : Nat) : ds.NoFarther q x x := by simp [DataSet.NoFarther, FloatOps.le]

/-- The error code, the number of clusters and the labels in the default build with the built-in search. -/
def labelsOf (ds : DataSet Int) (o : Options Int) (ob : ClObj) : Option (ErrorCode × Nat × List Int) :=
  (scClustering sampleCfg (builtinSpi (some ds)) o (some ob) (sampleWorld [5])).bind fun r => r.1.2.bind fun ob => ob.cl.label.bind fun b =>
    (b.buf.read ob.cl.n).map fun l => (r.1.1, ob.cl.numClusters, l)

example (um : UnassignedMethod) : OnSuccess sampleCfg (builtinSpi (some twoData)) (gapOpts um) gapObj (sampleWorld [5]) fun k b => NotMixed 7 (List.range 7) (fun v => v % 2) k b :=
  C64_not_mixed (ob := gapObj) (m := .lexical) two_nearest (gap_call (Or.inl rfl) um) rfl rfl two_separated (two_large rfl rfl _ _) fun q _ x _ => int_noFarther _ q x

example : labelsOf twoData (gapOpts .anyNeighbor) gapObj = some (.ok, 2, [0, 1, 0, 1, 0, 1, 0]) := by decide +kernel

example (um : UnassignedMethod) (bs : Nat) : OnSuccess sortedCfg (builtinSpi (some twoData)) (gapBatch um bs) gapObj (sampleWorld [5])
    fun k b => ∀ i, i < k → ∀ u ∈ members b 7 i, ∀ v ∈ members b 7 i, u % 2 = v % 2 := by
  have h : ∀ s < 7, ∀ x < 7, ∀ y < 7, twoData.sqd s x ≤ twoData.sqd s s → twoData.sqd s x ≤ twoData.sqd s y := by decide +kernel
  exact C64_not_mixed_batches (ob := gapObj) two_nearest (gapBatch_call um bs) rfl (gapBatch_fits um bs)
    (fun _ s hs x hx y hy => by simpa [DataSet.NoFarther, FloatOps.le] using h s hs x hx y hy) two_separated (two_large rfl rfl _ _)

example : labelsOf twoData (gapBatch .anyNeighbor 2) gapObj = some (.ok, 2, [0, 1, 0, 1, 0, 1, 0]) := by decide +kernel

/-- Six points on a line in two groups. -/
def farData : DataSet Int := mkData 1 [0, 1, 3, 20, 21, 23]

/-- With types: each group has points of both types. -/
example : OnSuccess sampleCfg (builtinSpi (some farData)) typeOpts lineObj (sampleWorld [5]) fun k b => NotMixed 6 (List.range 6) (fun v => v / 3) k b := by
  have h : ∀ q < 6, ∀ x < 6, ∀ y < 6, x / 3 = q / 3 ∧ y / 3 ≠ q / 3 → farData.sqd q x < farData.sqd q y := by decide +kernel
  exact C64_not_mixed (ob := lineObj) (m := .lexical) (builtinSpi_nearest intLaws farData (mkData_complete (by decide)) fun _ _ _ _ => int_isNum _)
    (line_callOk typeOpts_arrays ⟨by decide, fun _ => ⟨⟨0, by decide⟩, by decide⟩⟩) rfl rfl
    (fun q x y hq hx hy h1 h2 => by simpa [DataSet.NoFarther, FloatOps.le] using h q hq x hx y hy ⟨h1, h2⟩)
    (fun q hq => ⟨(by decide : ∀ q ∈ List.range 6, 2 ≤ (groupOf 6 (fun v => v / 3) q).length) q hq, fun _ t ht =>
      (by decide : ∀ q ∈ List.range 6, ∀ t < 2, 1 ≤ (groupOf 6 (fun v => v / 3) q).countP fun x => x % 2 = t) q hq t ht⟩) fun q _ x _ => int_noFarther _ q x

example : labelsOf farData typeOpts lineObj = some (.ok, 2, [0, 0, 0, 1, 1, 1]) := by decide +kernel

/-- The group of the last of the six points at 0, 1, 3, 7, 8 and 20. -/
def lineGroup (v : Nat) : Nat := if v < 3 then 0 else if v < 5 then 1 else 2

/-- C64: the size of the groups matters. A point on its own is a group far from the others, but it shares a cluster with another group. -/
theorem C64_small_group_mixed : Separated lineData.NoFarther 6 lineGroup ∧ (groupOf 6 lineGroup 5).length = 1 ∧
    labelsOf lineData (lineOpts .anyNeighbor .useSeedRadius 0) lineObj = some (.ok, 2, [0, 0, 0, 1, 1, 1]) := by
  have h : ∀ q < 6, ∀ x < 6, ∀ y < 6, lineGroup x = lineGroup q ∧ lineGroup y ≠ lineGroup q → lineData.sqd q x < lineData.sqd q y := by decide +kernel
  exact ⟨fun q x y hq hx hy h1 h2 => by simpa [DataSet.NoFarther, FloatOps.le] using h q hq x hx y hy ⟨h1, h2⟩, by decide, by decide +kernel⟩

end Scc
