/-
Property C81: `scc_sc_clustering` divides a group of points that is far from all others as if it were called for this group alone. The specification is in Spec/Local.lean.
-/
import Verif.Proofs.LocalBatches
import Verif.Props.Relax

set_option linter.unusedVariables false

namespace Scc

variable {F : Type} [FloatOps F]

omit [FloatOps F] in
theorem Picks.le_self {n m : Nat} {ι : Nat → Nat} (h : Picks n m ι) : ∀ i, i < m → i ≤ ι i
  | 0, _ => Nat.zero_le _
  | i + 1, hi => lt_of_le_of_lt (h.le_self i (by omega)) (h.mono i (i + 1) (by omega) hi)

omit [FloatOps F] in
theorem Picks.le {n m : Nat} {ι : Nat → Nat} (h : Picks n m ι) : m ≤ n := by
  cases m with
  | zero => omega
  | succ m =>
    have h1 := h.le_self m (by omega)
    have h2 := h.range m (by omega)
    omega

theorem TooBig.mono {cfg : Cfg} {n n' S : Nat} {m : SeedMethod} (hn : n ≤ n') (h : TooBig cfg n S m) : TooBig cfg n' S m := by
  have h1 : n * S ≤ n' * S := Nat.mul_le_mul_right _ hn
  have h2 : n * n ≤ n' * n' := Nat.mul_le_mul hn hn
  rcases h with h | h | ⟨h3, h | h⟩
  · exact Or.inl (by omega)
  · exact Or.inr (Or.inl (by omega))
  · exact Or.inr (Or.inr ⟨h3, Or.inl (by omega)⟩)
  · exact Or.inr (Or.inr ⟨h3, Or.inr (by omega)⟩)

theorem nearest_oneAnswer {n : Nat} {le : Nat → Nat → Nat → Prop} {within : Nat → Nat → F → Prop} (hties : ∀ q x y, q < n → x < n → y < n → le q x y → le q y x → x = y) : OneAnswer (Strict n (Nearest le within)) := by
  intro set k R q a a' ha ha'
  have h := nearest_determined (cfg := { sampleCfg with stableNng := false }) hties _ _ _ _ _ _ ha ha'
  cases h with
  | none => rfl
  | some h => exact congrArg some h

theorem primary_ne {cfg : Cfg} {o : Options F} {ob : ClObj} {P : List Nat} {lab c : Nat → Nat} {w : World} (hc : CallOk cfg o ob P lab c w) {valid : Bool} {num : Nat} (hacc : Accepts cfg valid num o ob.cl P) : P ≠ [] := by
  rintro rfl
  rcases hacc.options.primary with ⟨h, -⟩ | ⟨h, h', -⟩
  · have h1 := congrArg List.length (hc.arrays.all h)
    have h2 := hacc.options.size_two
    have h3 := hacc.options.size_le
    simp at h1
    omega
  · obtain ⟨b, hb⟩ := Option.ne_none_iff_exists'.1 h
    exact h' (hc.arrays.primary b hb).1.symm

/-- C81. The points in `ι` are a group that is far from all other points, and every group with a primary point is large enough for a cluster. A call for all points and a call for this group alone, with the same
options, types and primary points, leave the same points of the group unassigned and put the same points of the group together, unless the call for the group alone finds that there is no solution, which can
only be due to a seed radius. -/
theorem C81_groups_independent {cfg : Cfg} {spi spi' : Spi F} {le le' : Nat → Nat → Nat → Prop} {within within' : Nat → Nat → F → Prop} {dist dist' : Nat → Nat → F} {o o' : Options F} {ob ob' : ClObj}
    (hs : SpiOk spi ob.cl.n (Nearest le within) dist False) (hs' : SpiOk spi' ob'.cl.n (Nearest le' within') dist' False) {ι g : Nat → Nat} {γ : Nat} (hι : Picks ob.cl.n ob'.cl.n ι)
    (hd : SameNearby ob'.cl.n ι le le' within within') (hsep : Separated le ob.cl.n g) (hg : IsGroup ob.cl.n ob'.cl.n ι g γ) {P P' : List Nat} {lab c lab' c' : Nat → Nat} {w w' : World}
    (hc : CallOk cfg o ob P lab c w) (hc' : CallOk cfg o' ob' P' lab' c' w') (hbig : GroupsLarge ob.cl.n o P lab c g) (ho : SameSettings o o') (hty : PartTypes ob'.cl.n ι o.numTypes lab c lab' c')
    (hP : ∀ i, i < ob'.cl.n → (i ∈ P' ↔ ι i ∈ P)) {m : SeedMethod} (hm : o.seedMethod = .method m) (hacc : Accepts cfg spi.valid spi.numPoints o ob.cl P)
    (hacc' : Accepts cfg spi'.valid spi'.numPoints o' ob'.cl P') (hw : w.NoFail) (hw' : w'.NoFail) (hsmall : ¬ TooBig cfg ob.cl.n o.sizeConstraint m)
    (hsum : 2 ≤ o.numTypes → sumTo c o.numTypes ≤ o.sizeConstraint) (hest : ¬ UsesEstimate o.primaryMethod o.primaryRadius ∧ ¬ UsesEstimate o.secondaryMethod o.secondaryRadius)
    (hties : ∀ q x y, q < ob'.cl.n → x < ob'.cl.n → y < ob'.cl.n → le' q x y → le' q y x → x = y) (hstable : m = .inwardsUpdating ∨ m = .exclusionUpdating → cfg.stableSeeds = true) :
    (∃ r b v r' b' v', scClustering cfg spi o (some ob) w = some ((.ok, some r), v) ∧ r.cl.label = some b ∧ scClustering cfg spi' o' (some ob') w' = some ((.ok, some r'), v') ∧
      r'.cl.label = some b' ∧ SameInPart cfg ob'.cl.n ι b.buf b'.buf) ∨
    (∃ p v, scClustering cfg spi' o' (some ob') w' = some ((.noSolution, p), v)) ∧ o.seedRadius = .useSupplied := by
  have hS := hacc.options.size_two
  have hS' := hacc'.options.size_two
  have hone := nearest_oneAnswer (within := within') hties
  have hsmall' : ¬ TooBig cfg ob'.cl.n o'.sizeConstraint m := fun h => hsmall (by rw [ho.size] at h; exact h.mono hι.le)
  have hsum' : 2 ≤ o'.numTypes → sumTo c' o'.numTypes ≤ o'.sizeConstraint := by
    rw [ho.types, ho.size]
    intro hT
    rw [sumTo_congr (hty hT).2]
    exact hsum hT
  have hnoEst : ∀ {d : Nat → Nat → F} {rows : Nat → List Nat} {seeds : List Nat}, ¬ BadEstimate d o rows seeds := by
    rintro d rows seeds ⟨h | h, -⟩
    · exact hest.1 h
    · exact hest.2 h
  have hnoEst' : ∀ {d : Nat → Nat → F} {rows : Nat → List Nat} {seeds : List Nat}, ¬ BadEstimate d o' rows seeds := by
    rintro d rows seeds ⟨h | h, -⟩
    · rw [ho.primary.1, ho.primary.2.1] at h; exact hest.1 h
    · rw [ho.secondary.1, ho.secondary.2.1] at h; exact hest.2 h
  rcases run_undisturbed hs'.strict hc' (ho.seedMethod.trans hm) hacc' hw' hsmall' hsum' with ⟨r', b', v', rows', order', M2, M3, M, h1', h2', h3'⟩ | ⟨p, v, h1', h2' | ⟨rows, order, -, -, -, h2'⟩⟩
  · rcases run_undisturbed hs.strict hc hm hacc hw hsmall hsum with ⟨r, b, v, rows, order, L2, L3, L, h1, h2, h3⟩ | ⟨p, v, h1, h2 | ⟨rows, order, -, -, -, h2⟩⟩
    · exact Or.inl ⟨r, b, v, r', b', v', h1, h2, h1', h2', h3.part hc.config hι hd hsep hg hone ho hS hest hty hP hc'.arrays.range hbig hstable h3'⟩
    · exact absurd (hι.noSeeds hd hsep hg ho hty hP hc'.arrays.range hbig h2) (h3'.nng.not_noSeeds_one hone (h3'.some_row hS'))
    · exact absurd h2 hnoEst
  · refine Or.inr ⟨⟨p, v, h1'⟩, ?_⟩
    have hR : Scc.seedLimit o' ≠ none := by
      rcases h2' with ⟨-, hR, -⟩ | ⟨hT, ⟨hR, -⟩ | ⟨t, ht, hfew⟩⟩
      · exact hR
      · exact hR
      · exfalso
        obtain ⟨q, hq⟩ := List.exists_mem_of_ne_nil _ (primary_ne hc' hacc')
        have hqn := hc'.arrays.range q hq
        rw [ho.types] at hT ht
        have := hι.type_large hg (hty hT).1 hbig hT hqn ((hP q hqn).1 hq) ht
        rw [(hty hT).2 t ht] at hfew
        omega
    rw [ho.seedLimit] at hR
    cases hr : o.seedRadius <;> simp [seedLimit, hr] at hR ⊢
  · exact absurd h2' hnoEst'

/-- The two ways in which a call with batches ends when nothing goes wrong with memory, the sizes or the search. -/
theorem batch_cases {cfg : Cfg} {spi : Spi F} {A : Criterion F} {dist : Nat → Nat → F} {o : Options F} {ob : ClObj} (hs : SpiOk spi ob.cl.n A dist False) {P : List Nat} {lab c : Nat → Nat} {w : World}
    (hc : CallOk cfg o ob P lab c w) (hm : o.seedMethod = .batches) (hfit : BatchFits o ob.cl.n) (hacc : Accepts cfg spi.valid spi.numPoints o ob.cl P)
    (hum : o.primaryMethod = .ignore ∨ o.primaryMethod = .anyNeighbor) (hw : w.NoFail) (hmax : ob.cl.n ≤ cfg.clabelMax) :
    (∃ cl b v evs, scClustering cfg spi o (some ob) w = some ((.ok, some ⟨ob.id, cl⟩), v) ∧ cl.label = some b ∧ BatchRun cfg A ob.cl.n o P evs ∧ (batchResult o evs).clusters ≠ [] ∧
      (batchResult o evs).clusters.length ≤ cfg.clabelMax ∧ LabelsAre cfg ob.cl.n b.buf (batchResult o evs).label) ∨
    ∃ p v evs, scClustering cfg spi o (some ob) w = some ((.noSolution, p), v) ∧ BatchRun cfg A ob.cl.n o P evs ∧ (batchResult o evs).clusters = [] := by
  obtain ⟨⟨e, p⟩, w', h1, h2⟩ := scBatches_spec hs hc hm hfit
  rcases h2 with h2 | ⟨-, -, ⟨h2, -⟩ | ⟨-, M, cl', hlive, hp, h2⟩⟩
  · exact absurd hacc fun h => h2.cause.not_accepts h
  · exact absurd hum (not_or.2 h2)
  · dsimp only at hp
    subst hp
    cases h2 with
    | done _ _ evs id l run count pos cap labels labelled live =>
      refine Or.inl ⟨cl', ⟨id, l⟩, w', evs, h1, by rw [labelled.eq], run, fun h => ?_, by rw [← count]; exact cap, labels⟩
      rw [count, h] at pos
      exact absurd pos (by simp)
    | failed _ _ _ cause err after =>
      exfalso
      rcases cause with ⟨-, h⟩ | ⟨-, h⟩ | ⟨-, h⟩
      · exact absurd h (not_tooManyClusters (primary_length_le hc hacc) hmax)
      · exact absurd hw h
      · exact absurd hw (h.resolve_right id)
    | noSeeds _ _ evs id l run none err labels labelled live => exact Or.inr ⟨_, w', evs, h1, run, none⟩

/-- C81 for batches, of any sizes. -/
theorem C81_groups_independent_batches {cfg : Cfg} {spi spi' : Spi F} {le le' : Nat → Nat → Nat → Prop} {within within' : Nat → Nat → F → Prop} {dist dist' : Nat → Nat → F} {o o' : Options F} {ob ob' : ClObj}
    (hs : SpiOk spi ob.cl.n (Nearest le within) dist False) (hs' : SpiOk spi' ob'.cl.n (Nearest le' within') dist' False) {ι g : Nat → Nat} {γ : Nat} (hι : Picks ob.cl.n ob'.cl.n ι)
    (hd : SameNearby ob'.cl.n ι le le' within within') (hsep : Separated le ob.cl.n g) (hg : IsGroup ob.cl.n ob'.cl.n ι g γ) {P P' : List Nat} {lab c lab' c' : Nat → Nat} {w w' : World}
    (hc : CallOk cfg o ob P lab c w) (hc' : CallOk cfg o' ob' P' lab' c' w') (hbig : GroupsLarge ob.cl.n o P lab c g) (ho : SameSettings o o') (hP : ∀ i, i < ob'.cl.n → (i ∈ P' ↔ ι i ∈ P))
    (hm : o.seedMethod = .batches) (hum : o.primaryMethod = .ignore ∨ o.primaryMethod = .anyNeighbor) (hfit : BatchFits o ob.cl.n) (hfit' : BatchFits o' ob'.cl.n)
    (hacc : Accepts cfg spi.valid spi.numPoints o ob.cl P) (hacc' : Accepts cfg spi'.valid spi'.numPoints o' ob'.cl P') (hw : w.NoFail) (hw' : w'.NoFail) (hmax : ob.cl.n ≤ cfg.clabelMax)
    (hties : ∀ q x y, q < ob'.cl.n → x < ob'.cl.n → y < ob'.cl.n → le' q x y → le' q y x → x = y) :
    (∃ cl b v cl' b' v', scClustering cfg spi o (some ob) w = some ((.ok, some ⟨ob.id, cl⟩), v) ∧ cl.label = some b ∧ scClustering cfg spi' o' (some ob') w' = some ((.ok, some ⟨ob'.id, cl'⟩), v') ∧
      cl'.label = some b' ∧ SameInPart cfg ob'.cl.n ι b.buf b'.buf) ∨
    (∃ p v, scClustering cfg spi' o' (some ob') w' = some ((.noSolution, p), v)) ∧ o.seedRadius = .useSupplied := by
  have hPP : P' = pull ob'.cl.n ι P := by
    have h1 := primary_sorted hacc'.options hc'.arrays
    have h2 : (pull ob'.cl.n ι P).Pairwise (· < ·) := hι.pull_pairwise (R := (· < ·)) (fun i j hi hj hij => (hι.lt_iff hi hj).1 hij) (primary_sorted hacc.options hc.arrays)
    refine List.Perm.eq_of_pairwise (le := (· < ·)) (fun a b _ _ h3 h4 => absurd h3 (Nat.lt_asymm h4)) h1 h2 ?_
    rw [List.perm_ext_iff_of_nodup (h1.imp Nat.ne_of_lt) (h2.imp Nat.ne_of_lt)]
    intro i
    rw [hι.mem_pull]
    exact ⟨fun h => ⟨hc'.arrays.range i h, (hP i (hc'.arrays.range i h)).1 h⟩, fun h => (hP i h.1).2 h.2⟩
  have key : ∀ {evs evs' : List (Nat × Option (List Nat))}, BatchRun cfg (Strict ob.cl.n (Nearest le within)) ob.cl.n o P evs → BatchRun cfg (Strict ob'.cl.n (Nearest le' within')) ob'.cl.n o' P' evs' →
      ∃ τ, PartState ob'.cl.n ι τ (batchResult o evs) (batchResult o' evs') := by
    intro evs evs' r r'
    have hgood := r'.good
    unfold batchResult
    rw [ho.primary.1, ho.size, ho.seedLimit] at hgood
    rw [ho.primary.1]
    exact PartState.run hι hd hsep hg (nearest_determined hties) _ (by rw [r.order]; exact hc.arrays.range) (by rw [r.order]; exact fun x hx => (hbig x hx).1) (by rw [r.order, r'.order, hPP]) r.good hgood
  rcases batch_cases hs'.strict hc' (ho.seedMethod.trans hm) hfit' hacc' (by rw [ho.primary.1]; exact hum) hw' (hι.le.trans hmax) with ⟨cl', b', v', evs', h1', h2', h3', h4', h5', h6'⟩ | ⟨p, v, evs', h1', h2', h3'⟩
  · rcases batch_cases hs.strict hc hm hfit hacc hum hw hmax with ⟨cl, b, v, evs, h1, h2, h3, h4, h5, h6⟩ | ⟨p, v, evs, h1, h2, h3⟩
    · obtain ⟨τ, hst⟩ := key h3 h3'
      exact Or.inl ⟨cl, b, v, cl', b', v', h1, h2, h1', h2', hst.same hc.config hι h5 h5' h6 h6'⟩
    · obtain ⟨τ, hst⟩ := key h2 h3'
      have := hst.lt 0 (List.length_pos_iff.2 h4')
      rw [h3] at this
      exact absurd this (by simp)
  · refine Or.inr ⟨⟨p, v, h1'⟩, ?_⟩
    obtain ⟨e, p1, v1, k1, k2, -⟩ := C42_no_solution_batches hs' hc' (ho.seedMethod.trans hm) hfit'
    rw [h1'] at k1
    cases k1
    rcases k2 rfl with h | ⟨hr, -⟩
    · have := hacc'.options.size_le; omega
    · rw [← ho.seedRadius.1]; exact hr

theorem SubData.sqd {m : Nat} {ι : Nat → Nat} {ds ds' : DataSet F} (h : SubData m ι ds ds') {i j : Nat} (hi : i < m) (hj : j < m) : ds'.sqd i j = ds.sqd (ι i) (ι j) := by
  unfold DataSet.sqd
  rw [h.dims]
  refine List.foldl_ext _ _ _ fun acc t ht => ?_
  rw [h.coord i t hi (List.mem_range.1 ht), h.coord j t hj (List.mem_range.1 ht)]

/-- C81 for the built-in distances of a data set and of its rows for the group. -/
theorem C81_groups_independent_builtin {cfg : Cfg} (laws : FloatLaws F) {ds ds' : DataSet F} (hcd : ds.Complete) (hcd' : ds'.Complete) (hnum : ∀ i j, i < ds.n → j < ds.n → IsNum (ds.sqd i j)) {ι g : Nat → Nat} {γ : Nat}
    (hι : Picks ds.n ds'.n ι) (hds : SubData ds'.n ι ds ds') (hsep : Separated ds.NoFarther ds.n g) (hg : IsGroup ds.n ds'.n ι g γ) {o o' : Options F} {ob ob' : ClObj} (hn : ob.cl.n = ds.n) (hn' : ob'.cl.n = ds'.n)
    {P P' : List Nat} {lab c lab' c' : Nat → Nat} {w w' : World} (hc : CallOk cfg o ob P lab c w) (hc' : CallOk cfg o' ob' P' lab' c' w') (hbig : GroupsLarge ds.n o P lab c g) (ho : SameSettings o o')
    (hty : PartTypes ds'.n ι o.numTypes lab c lab' c') (hP : ∀ i, i < ds'.n → (i ∈ P' ↔ ι i ∈ P)) {m : SeedMethod} (hm : o.seedMethod = .method m) (hacc : Accepts cfg (builtinSpi (some ds)).valid (builtinSpi (some ds)).numPoints o ob.cl P)
    (hacc' : Accepts cfg (builtinSpi (some ds')).valid (builtinSpi (some ds')).numPoints o' ob'.cl P') (hw : w.NoFail) (hw' : w'.NoFail) (hsmall : ¬ TooBig cfg ds.n o.sizeConstraint m)
    (hsum : 2 ≤ o.numTypes → sumTo c o.numTypes ≤ o.sizeConstraint) (hest : ¬ UsesEstimate o.primaryMethod o.primaryRadius ∧ ¬ UsesEstimate o.secondaryMethod o.secondaryRadius)
    (hties : ∀ q x y, q < ds'.n → x < ds'.n → y < ds'.n → ds'.NoFarther q x y → ds'.NoFarther q y x → x = y)
    (hstable : m = .inwardsUpdating ∨ m = .exclusionUpdating → cfg.stableSeeds = true) :
    (∃ r b v r' b' v', scClustering cfg (builtinSpi (some ds)) o (some ob) w = some ((.ok, some r), v) ∧ r.cl.label = some b ∧
      scClustering cfg (builtinSpi (some ds')) o' (some ob') w' = some ((.ok, some r'), v') ∧ r'.cl.label = some b' ∧ SameInPart cfg ds'.n ι b.buf b'.buf) ∨
    (∃ p v, scClustering cfg (builtinSpi (some ds')) o' (some ob') w' = some ((.noSolution, p), v)) ∧ o.seedRadius = .useSupplied := by
  have hnum' : ∀ i j, i < ds'.n → j < ds'.n → IsNum (ds'.sqd i j) := by
    intro i j hi hj
    rw [hds.sqd hi hj]
    exact hnum _ _ (hι.range i hi) (hι.range j hj)
  have s1 := builtinSpi_nearest laws ds hcd hnum
  have s2 := builtinSpi_nearest laws ds' hcd' hnum'
  have hd : SameNearby ds'.n ι ds.NoFarther ds'.NoFarther ds.Within ds'.Within :=
    ⟨fun i x y hi hx hy => by unfold DataSet.NoFarther; rw [hds.sqd hi hx, hds.sqd hi hy], fun i x r hi hx => by unfold DataSet.Within; rw [hds.sqd hi hx]⟩
  rw [← hn] at s1 hι hsep hg hbig hsmall
  rw [← hn'] at s2 hι hds hg hty hP hties hd ⊢
  exact C81_groups_independent s1 s2 hι hd hsep hg hc hc' hbig ho hty hP hm hacc hacc' hw hw' hsmall hsum hest hties hstable

/-! ### Examples -/

/-- Six points on a line: the points 0 and 2 are far from the points 1, 3, 4 and 5. -/
def apartData : DataSet Int := mkData 1 [0, 100, 10, 102, 105, 97]

/-- The four points of the second group. -/
def apartPart : DataSet Int := mkData 1 [100, 102, 105, 97]

def apartPick (i : Nat) : Nat := [1, 3, 4, 5].getD i 0

def apartGroup (v : Nat) : Nat := if v = 0 ∨ v = 2 then 0 else 1

def fourObj : ClObj := ⟨5, clusteringVersion, 4, 0, none, false⟩

theorem apart_picks : Picks 6 4 apartPick := ⟨by decide, fun i j h1 h2 => (by decide : ∀ j < 4, ∀ i < j, apartPick i < apartPick j) j h2 i h1⟩

theorem apart_sub : SubData 4 apartPick apartData apartPart := ⟨rfl, rfl, fun i t h1 h2 => (by decide : ∀ i < 4, ∀ t < 1, apartPart.coord i t = apartData.coord (apartPick i) t) i h1 t h2⟩

theorem apart_nearby : SameNearby 4 apartPick apartData.NoFarther apartPart.NoFarther apartData.Within apartPart.Within :=
  ⟨fun i x y hi hx hy => by unfold DataSet.NoFarther; rw [apart_sub.sqd hi hx, apart_sub.sqd hi hy], fun i x r hi hx => by unfold DataSet.Within; rw [apart_sub.sqd hi hx]⟩

theorem apart_separated : Separated apartData.NoFarther 6 apartGroup := by
  have h : ∀ q < 6, ∀ x < 6, ∀ y < 6, apartGroup x = apartGroup q ∧ apartGroup y ≠ apartGroup q → apartData.sqd q x < apartData.sqd q y := by decide +kernel
  exact fun q x y hq hx hy g1 g2 => by simpa [DataSet.NoFarther, FloatOps.le] using h q hq x hx y hy ⟨g1, g2⟩

theorem four_callOk {o : Options Int} {P : List Nat} {lab c : Nat → Nat} (ha : OptionArrays 4 o P lab c) (hl : WithinLimits sampleCfg 4 o c) :
    CallOk sampleCfg o fourObj P lab c (sampleWorld [5]) where
  config := sampleCfg_valid
  live := by simp [fourObj, sampleWorld, ptrOwn]
  room := by intro lb h; cases h
  arrays := ha
  limits := fun _ => hl
  unchecked := fun _ => rfl

/-- For each way to assign the remaining points, the four points are divided as if the other two were not there. -/
example (um : UnassignedMethod) (hum : um ≠ .unknown) : ∃ r b v r' b' v',
    scClustering sampleCfg (builtinSpi (some apartData)) (lineOpts um .useSeedRadius 0) (some lineObj) (sampleWorld [5]) = some ((.ok, some r), v) ∧ r.cl.label = some b ∧
    scClustering sampleCfg (builtinSpi (some apartPart)) (lineOpts um .useSeedRadius 0) (some fourObj) (sampleWorld [5]) = some ((.ok, some r'), v') ∧ r'.cl.label = some b' ∧
    SameInPart sampleCfg 4 apartPick b.buf b'.buf := by
  have h2 : ∀ q < 4, ∀ x < 4, ∀ y < 4, apartPart.sqd q x ≤ apartPart.sqd q y → apartPart.sqd q y ≤ apartPart.sqd q x → x = y := by decide +kernel
  have hv : ∀ {n : Nat}, 2 ≤ n → ValidOptions (lineOpts um .useSeedRadius 0) n (List.range n) := fun hn =>
    ⟨rfl, le_refl 2, hn, Or.inl ⟨by show 0 < 2; decide, rfl, rfl, rfl⟩, nofun, Or.inl ⟨rfl, rfl⟩, hum, Or.inl rfl, ⟨Or.inl rfl, nofun, nofun⟩, ⟨nofun, nofun⟩, ⟨nofun, nofun⟩, nofun⟩
  refine (C81_groups_independent_builtin (cfg := sampleCfg) (ds := apartData) (ds' := apartPart) (ι := apartPick) (g := apartGroup) (γ := 1) (ob := lineObj) (ob' := fourObj) (m := .lexical)
    (o := lineOpts um .useSeedRadius 0) (o' := lineOpts um .useSeedRadius 0) intLaws (mkData_complete (by decide)) (mkData_complete (by decide)) (fun _ _ _ _ => int_isNum _)
    apart_picks apart_sub apart_separated (by unfold IsGroup; decide) rfl rfl
    (line_call um _ 0) (four_callOk (P := List.range 4) (lab := fun _ => 0) (c := fun _ => 0) ⟨fun _ => rfl, nofun, fun x hx => List.mem_range.1 hx, nofun, nofun⟩
      ⟨by show 4 * 2 ≤ 2 ^ 64 - 1; decide, fun h => absurd h (by show ¬ 2 ≤ 0; decide)⟩)
    (fun q hq => ⟨(by decide : ∀ q ∈ List.range 6, 2 ≤ (groupOf 6 apartGroup q).length) q hq, fun h => absurd h (by show ¬ 2 ≤ 0; decide)⟩)
    ⟨rfl, rfl, rfl, ⟨rfl, rfl⟩, ⟨rfl, rfl, rfl⟩, ⟨rfl, rfl, rfl⟩⟩ (fun h => absurd h (by show ¬ 2 ≤ 0; decide)) (by decide) rfl
    ⟨by decide, by decide, by decide, hv (by decide), rfl⟩ ⟨by decide, by decide, by decide, hv (by decide), rfl⟩ (fun _ _ => rfl) (fun _ _ => rfl)
    (show ¬ TooBig sampleCfg 6 2 .lexical by simp [TooBig, SeedMethod.IsExclusion]; decide) (fun h => absurd h (by show ¬ 2 ≤ 0; decide)) ⟨fun h => absurd h.2 (by show ¬ RadiusMethod.useSeedRadius = .useEstimated; decide), fun h => absurd h.2 (by show ¬ RadiusMethod.useSeedRadius = .useEstimated; decide)⟩
    (fun q x y hq hx hy g1 g2 => h2 q hq x hx y hy (by simpa [DataSet.NoFarther, FloatOps.le] using g1) (by simpa [DataSet.NoFarther, FloatOps.le] using g2))
    (by rintro (h | h) <;> cases h)).resolve_right fun h => absurd h.2 (by show ¬ RadiusMethod.noRadius = .useSupplied; decide)

example : labelsOf apartData (lineOpts .anyNeighbor .useSeedRadius 0) lineObj = some (.ok, 2, [0, 1, 0, 1, 1, 1]) ∧
    labelsOf apartPart (lineOpts .anyNeighbor .useSeedRadius 0) fourObj = some (.ok, 1, [0, 0, 0, 0]) ∧
    labelsOf apartData (lineOpts .ignore .useSeedRadius 0) lineObj = some (.ok, 2, [0, 1, 0, 1, sampleCfg.na, sampleCfg.na]) ∧
    labelsOf apartPart (lineOpts .ignore .useSeedRadius 0) fourObj = some (.ok, 1, [0, 0, sampleCfg.na, sampleCfg.na]) := by
  decide +kernel

/-- Seven points on a line: the points 0, 2 and 6 are far from the points 1, 3, 4 and 5. -/
def typedData : DataSet Int := mkData 1 [0, 100, 10, 102, 105, 97, 3]

def typedGroup (v : Nat) : Nat := if v = 0 ∨ v = 2 ∨ v = 6 then 0 else 1

/-- The types of the points. -/
def typedLab (v : Nat) : Nat := [0, 0, 1, 1, 0, 1, 0].getD v 0

/-- Clusters of at least three points with one point of each type. -/
def typedOpts (labs : List Nat) : Options Int :=
  { (defaultOptions : Options Int) with sizeConstraint := 3, numTypes := 2, typeConstraints := some (Buf.ofList [1, 1]), lenTypeLabels := labs.length, typeLabels := some (Buf.ofList labs), primaryMethod := .closestAssigned, primaryRadius := .noRadius }

def sevenObj : ClObj := ⟨5, clusteringVersion, 7, 0, none, false⟩

theorem typed_valid {labs : List Nat} {n : Nat} (hn : 3 ≤ n) (h : labs.length = n) : ValidOptions (typedOpts labs) n (List.range n) :=
  ⟨rfl, by show 2 ≤ 3; decide, hn, Or.inr ⟨by show 2 ≤ 2; decide, by show 2 ≤ 65535; decide, nofun, by show n ≤ labs.length; omega, nofun⟩, nofun, Or.inl ⟨rfl, rfl⟩, nofun, Or.inl rfl,
    ⟨Or.inl rfl, nofun, nofun⟩, ⟨nofun, nofun⟩, ⟨nofun, nofun⟩, nofun⟩

theorem typed_call {labs : List Nat} {n : Nat} (hn : n < 10) {lab : Nat → Nat} (hl : ∀ v < n, (Buf.ofList labs).get v = some (lab v) ∧ lab v < 2) :
    CallOk sampleCfg (typedOpts labs) ⟨5, clusteringVersion, n, 0, none, false⟩ (List.range n) lab (fun _ => 1) (sampleWorld [5]) where
  config := sampleCfg_valid
  live := by simp [sampleWorld, ptrOwn]
  room := by intro lb h; cases h
  arrays := by
    refine ⟨fun _ => rfl, nofun, fun x hx => List.mem_range.1 hx, fun b _ hb v hv => ?_, fun b _ hb t ht => ?_⟩
    · cases hb
      exact hl v hv
    · cases hb
      exact (by decide : ∀ t < 2, (Buf.ofList [1, 1]).get t = some 1) t ht
  limits := fun _ => ⟨(show n * 3 ≤ 30 by omega).trans (by show 30 ≤ 2 ^ 64 - 1; decide), fun _ => ⟨⟨0, by show 0 < 2; decide, Nat.one_pos⟩, by show 2 < 2 ^ 32; decide⟩⟩
  unchecked := fun _ => rfl

/-- With types, the four points are divided as if the other three were not there. -/
example : ∃ r b v r' b' v',
    scClustering sampleCfg (builtinSpi (some typedData)) (typedOpts [0, 0, 1, 1, 0, 1, 0]) (some sevenObj) (sampleWorld [5]) = some ((.ok, some r), v) ∧ r.cl.label = some b ∧
    scClustering sampleCfg (builtinSpi (some apartPart)) (typedOpts [0, 1, 0, 1]) (some fourObj) (sampleWorld [5]) = some ((.ok, some r'), v') ∧ r'.cl.label = some b' ∧
    SameInPart sampleCfg 4 apartPick b.buf b'.buf := by
  have h1 : ∀ q < 7, ∀ x < 7, ∀ y < 7, typedGroup x = typedGroup q ∧ typedGroup y ≠ typedGroup q → typedData.sqd q x < typedData.sqd q y := by decide +kernel
  have h2 : ∀ q < 4, ∀ x < 4, ∀ y < 4, apartPart.sqd q x ≤ apartPart.sqd q y → apartPart.sqd q y ≤ apartPart.sqd q x → x = y := by decide +kernel
  refine (C81_groups_independent_builtin (cfg := sampleCfg) (ds := typedData) (ds' := apartPart) (ι := apartPick) (g := typedGroup) (γ := 1) (ob := sevenObj) (ob' := fourObj) (m := .lexical)
    (o := typedOpts [0, 0, 1, 1, 0, 1, 0]) (o' := typedOpts [0, 1, 0, 1]) intLaws (mkData_complete (by decide)) (mkData_complete (by decide)) (fun _ _ _ _ => int_isNum _)
    ⟨by decide, fun i j h1 h2 => (by decide : ∀ j < 4, ∀ i < j, apartPick i < apartPick j) j h2 i h1⟩
    ⟨rfl, rfl, fun i t h1 h2 => (by decide : ∀ i < 4, ∀ t < 1, apartPart.coord i t = typedData.coord (apartPick i) t) i h1 t h2⟩
    (fun q x y hq hx hy g1 g2 => by simpa [DataSet.NoFarther, FloatOps.le] using h1 q hq x hx y hy ⟨g1, g2⟩) (by unfold IsGroup; decide) rfl rfl
    (typed_call (n := 7) (lab := typedLab) (by decide) (by decide)) (typed_call (n := 4) (lab := fun i => typedLab (apartPick i)) (by decide) (by decide))
    (fun q hq => (by decide : ∀ q ∈ List.range 7, 3 ≤ (groupOf 7 typedGroup q).length ∧ (2 ≤ 2 → ∀ t, t < 2 → 1 ≤ (groupOf 7 typedGroup q).countP fun x => typedLab x = t)) q hq)
    ⟨rfl, rfl, rfl, ⟨rfl, rfl⟩, ⟨rfl, rfl, rfl⟩, ⟨rfl, rfl, rfl⟩⟩ (fun _ => ⟨fun _ _ => rfl, fun _ _ => rfl⟩) (by decide) rfl
    ⟨by decide, by decide, by decide, typed_valid (by decide) rfl, rfl⟩ ⟨by decide, by decide, by decide, typed_valid (by decide) rfl, rfl⟩ (fun _ _ => rfl) (fun _ _ => rfl)
    (show ¬ TooBig sampleCfg 7 3 .lexical by simp [TooBig, SeedMethod.IsExclusion]; decide) (fun _ => by show sumTo (fun _ => 1) 2 ≤ 3; decide)
    ⟨fun h => absurd h.2 (by show ¬ RadiusMethod.noRadius = .useEstimated; decide), fun h => absurd h.2 (by show ¬ _ = RadiusMethod.useEstimated; decide)⟩
    (fun q x y hq hx hy g1 g2 => h2 q hq x hx y hy (by simpa [DataSet.NoFarther, FloatOps.le] using g1) (by simpa [DataSet.NoFarther, FloatOps.le] using g2))
    (by rintro (h | h) <;> cases h)).resolve_right fun h => absurd h.2 (by show ¬ RadiusMethod.noRadius = .useSupplied; decide)

/-- The same in batches, with batches of other sizes for the part. -/
example (um : UnassignedMethod) (hum : um = .ignore ∨ um = .anyNeighbor) (bs bs' : Nat) : ∃ cl b v cl' b' v',
    scClustering sampleCfg (builtinSpi (some apartData)) (batchOpts um bs) (some lineObj) (sampleWorld [5]) = some ((.ok, some ⟨5, cl⟩), v) ∧ cl.label = some b ∧
    scClustering sampleCfg (builtinSpi (some apartPart)) (batchOpts um bs') (some fourObj) (sampleWorld [5]) = some ((.ok, some ⟨5, cl'⟩), v') ∧ cl'.label = some b' ∧
    SameInPart sampleCfg 4 apartPick b.buf b'.buf := by
  have h2 : ∀ q < 4, ∀ x < 4, ∀ y < 4, apartPart.sqd q x ≤ apartPart.sqd q y → apartPart.sqd q y ≤ apartPart.sqd q x → x = y := by decide +kernel
  have hum' : um ≠ .unknown := by rcases hum with rfl | rfl <;> decide
  have hv : ∀ {n : Nat} (bs : Nat), 2 ≤ n → ValidOptions (batchOpts um bs) n (List.range n) := fun bs hn =>
    ⟨rfl, le_refl 2, hn, Or.inl ⟨by show 0 < 2; decide, rfl, rfl, rfl⟩, nofun, Or.inl ⟨rfl, rfl⟩, hum', Or.inl rfl, ⟨Or.inl rfl, nofun, nofun⟩, ⟨nofun, nofun⟩, ⟨nofun, nofun⟩, fun _ => ⟨by show 0 < 2; decide, rfl, rfl⟩⟩
  exact (C81_groups_independent_batches (cfg := sampleCfg) (ob := lineObj) (ob' := fourObj) (o := batchOpts um bs) (o' := batchOpts um bs') (ι := apartPick) (g := apartGroup) (γ := 1)
    (builtinSpi_nearest intLaws apartData (mkData_complete (by decide)) fun _ _ _ _ => int_isNum _) (builtinSpi_nearest intLaws apartPart (mkData_complete (by decide)) fun _ _ _ _ => int_isNum _)
    apart_picks apart_nearby apart_separated (by unfold IsGroup; decide) (batch_call um bs)
    (four_callOk (P := List.range 4) (lab := fun _ => 0) (c := fun _ => 0) ⟨fun _ => rfl, nofun, fun x hx => List.mem_range.1 hx, nofun, nofun⟩
      ⟨by show 4 * 2 ≤ 2 ^ 64 - 1; decide, fun h => absurd h (by show ¬ 2 ≤ 0; decide)⟩)
    (fun q hq => ⟨(by decide : ∀ q ∈ List.range 6, 2 ≤ (groupOf 6 apartGroup q).length) q hq, fun h => absurd h (by show ¬ 2 ≤ 0; decide)⟩)
    ⟨rfl, rfl, rfl, ⟨rfl, rfl⟩, ⟨rfl, rfl, rfl⟩, ⟨rfl, rfl, rfl⟩⟩ (by decide) rfl hum (batch_fits um bs)
    (by
      show 2 * batchLen (batchOpts um bs') 4 < 2 ^ 32
      unfold batchLen
      split <;> omega)
    ⟨by decide, by decide, by decide, hv bs (by decide), rfl⟩ ⟨by decide, by decide, by decide, hv bs' (by decide), rfl⟩ (fun _ _ => rfl) (fun _ _ => rfl) (by decide)
    (fun q x y hq hx hy g1 g2 => h2 q hq x hx y hy (by simpa [DataSet.NoFarther, FloatOps.le] using g1) (by simpa [DataSet.NoFarther, FloatOps.le] using g2))).resolve_right
    fun h => absurd h.2 (by show ¬ RadiusMethod.noRadius = .useSupplied; decide)

/-- C81: the condition that no radius is estimated is needed. The estimate is an average over all groups, so the points of one group decide whether points of another group are assigned. -/
theorem C81_estimate_depends_on_others : labelsOf apartData (lineOpts .closestSeed .useEstimated 0) lineObj = some (.ok, 2, [0, 1, 0, 1, 1, 1]) ∧
    labelsOf apartPart (lineOpts .closestSeed .useEstimated 0) fourObj = some (.ok, 1, [0, 0, sampleCfg.na, sampleCfg.na]) := by
  decide +kernel

end Scc
