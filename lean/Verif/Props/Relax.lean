/-
Property C74: weaker constraints have a solution when stronger ones do (src/nng_clustering.c, src/nng_core.c, src/nng_batch_clustering.c).
-/
import Verif.Props.Assign
import Verif.Props.Batches
import Verif.Spec.Relax

set_option linter.unusedVariables false

namespace Scc

variable {F : Type} [FloatOps F]

theorem SeqState.length_consider_le (ig : Bool) (st : SeqState) (e : Nat × Option (List Nat)) : (st.consider ig e).clusters.length ≤ st.clusters.length + 1 := by
  unfold SeqState.consider
  split
  · omega
  · split
    · omega
    · split
      · simp
      · split <;> simp

theorem length_foldl_le (ig : Bool) (evs : List (Nat × Option (List Nat))) (st : SeqState) : (evs.foldl (SeqState.consider ig) st).clusters.length ≤ st.clusters.length + evs.length := by
  induction evs generalizing st with
  | nil => simp
  | cons e evs ih =>
    rw [List.foldl_cons]
    have h1 := ih (st.consider ig e)
    have h2 := st.length_consider_le ig e
    simp only [List.length_cons]
    omega

/-- A run in batches makes at most one cluster per point. -/
theorem not_tooManyClusters {cfg : Cfg} {A : Criterion F} {n : Nat} {o : Options F} {P : List Nat} (hn : P.length ≤ n) (h : n ≤ cfg.clabelMax) : ¬ TooManyClusters cfg A n o P := by
  rintro ⟨evs, rest, -, h1, h2⟩
  have h3 : (batchResult o evs).clusters.length ≤ evs.length := by
    have := length_foldl_le (decide (o.primaryMethod = .ignore)) evs SeqState.init
    simpa [batchResult, seqRun, SeqState.init] using this
  have h4 := congrArg List.length h1
  simp at h4
  omega

theorem primary_length_le {cfg : Cfg} {spi : Spi F} {o : Options F} {ob : ClObj} {P : List Nat} {lab c : Nat → Nat} {w : World} (hc : CallOk cfg o ob P lab c w)
    (hacc : Accepts cfg spi.valid spi.numPoints o ob.cl P) : P.length ≤ ob.cl.n := by
  have hnd : P.Nodup := by
    rcases hacc.options.primary with ⟨h, -⟩ | ⟨-, -, h⟩
    · rw [hc.arrays.all h]; exact List.nodup_range
    · exact h.imp fun h => Nat.ne_of_lt h
  have := (List.subperm_of_subset hnd (l₂ := List.range ob.cl.n) fun x hx => List.mem_range.2 (hc.arrays.range x hx)).length_le
  simpa using this

/-- C42 for batches, conversely: the call succeeds when a primary point has enough points within the seed radius (or there is no seed radius), nothing fails and sizes fit. -/
theorem C42_solution_batches {cfg : Cfg} {spi : Spi F} {le : Nat → Nat → Nat → Prop} {within : Nat → Nat → F → Prop} {dist : Nat → Nat → F} {o : Options F} {ob : ClObj}
    (hs : SpiOk spi ob.cl.n (Nearest le within) dist False) {P : List Nat} {lab c : Nat → Nat} {w : World} (hc : CallOk cfg o ob P lab c w) (hm : o.seedMethod = .batches)
    (hfit : BatchFits o ob.cl.n) (hacc : Accepts cfg spi.valid spi.numPoints o ob.cl P) (hum : o.primaryMethod = .ignore ∨ o.primaryMethod = .anyNeighbor) (hw : w.NoFail)
    (hmax : ob.cl.n ≤ cfg.clabelMax) (hsol : o.seedRadius = .useSupplied → ∃ v ∈ P, EnoughWithin within ob.cl.n o.sizeConstraint v o.seedSupplied) :
    ∃ p w', scClustering cfg spi o (some ob) w = some ((.ok, p), w') := by
  obtain ⟨e, p, w', h1, h2, -⟩ := C42_no_solution_batches hs hc hm hfit
  obtain ⟨⟨e', p'⟩, w1, h1', h3⟩ := scBatches_spec hs hc hm hfit
  rw [h1] at h1'
  cases h1'
  rcases h3 with h3 | ⟨-, -, ⟨h3, -⟩ | ⟨-, M, cl', hlive, hp, h3⟩⟩
  · exact absurd hacc fun h => h3.cause.not_accepts h
  · exact absurd hum (not_or.2 h3)
  · cases h3 with
    | done => exact ⟨_, _, h1⟩
    | failed _ _ _ cause err after =>
      rcases cause with ⟨-, h⟩ | ⟨-, h⟩ | ⟨-, h⟩
      · exact absurd h (not_tooManyClusters (primary_length_le hc hacc) hmax)
      · exact absurd hw h
      · exact absurd hw (h.resolve_right id)
    | noSeeds =>
      rcases h2 rfl with h | ⟨hr, h⟩
      · have := hacc.options.size_le; omega
      · obtain ⟨v, hv, hv'⟩ := hsol hr
        exact absurd hv' (h v hv)

/-- A call that succeeds has constraints that can be met. -/
theorem solvable_of_ok {cfg : Cfg} {spi : Spi F} {le : Nat → Nat → Nat → Prop} {within : Nat → Nat → F → Prop} {dist : Nat → Nat → F} {mayRefuse : Prop} {o : Options F} {ob : ClObj}
    (hs : SpiOk spi ob.cl.n (Nearest le within) dist mayRefuse) {P : List Nat} {lab c : Nat → Nat} {w : World} (hc : CallOk cfg o ob P lab c w)
    (hself : 2 ≤ o.numTypes → o.seedRadius = .useSupplied → ∀ v, v < ob.cl.n → within v v o.seedSupplied) (hfit : o.seedMethod = .batches → BatchFits o ob.cl.n)
    (hok : ∃ p w', scClustering cfg spi o (some ob) w = some ((.ok, p), w')) : CanMeet ob.cl.n within o P lab c ∧ Accepts cfg spi.valid spi.numPoints o ob.cl P := by
  obtain ⟨p, w', hok⟩ := hok
  cases hsm : o.seedMethod with
  | unknown =>
    obtain ⟨r, w1, h1, h2⟩ := scClustering_checks (Q := fun r _ => r.1 ≠ .ok) (spi := spi) (Multiset.mem_of_le hc.live (by simp)) hc.arrays (fun r w' h => h.ne_ok) fun hacc => absurd hsm hacc.options.seed
    rw [hok] at h1
    cases h1
    exact absurd rfl h2
  | batches =>
    obtain ⟨⟨e', p'⟩, w1, h1, h2⟩ := scBatches_spec hs hc hsm (hfit hsm)
    rw [hok] at h1
    cases h1
    rcases h2 with h2 | ⟨hacc, -, ⟨-, h2, -⟩ | ⟨-, M, cl', hlive, hp, h2⟩⟩
    · exact absurd rfl h2.ne_ok
    · cases h2
    · have ht := (hacc.options.batches hsm).1
      refine ⟨⟨fun h => by omega, fun hr => ?_⟩, hacc⟩
      have hS : 0 < o.sizeConstraint := by have := hacc.options.size_two; omega
      cases h2 with
      | done _ _ evs id l run count pos cap labels labelled live =>
        obtain ⟨c', hc'⟩ := List.exists_mem_of_ne_nil _ (List.length_pos_iff.1 (by rw [← count]; exact pos))
        obtain ⟨s, a, q1, q2, -⟩ := (run.facts hS).seeds c' hc'
        obtain ⟨r1, r2, r3⟩ := q2.2.2 a rfl
        obtain ⟨l', ha₀, rfl⟩ := q2.1.of_some
        exact ⟨s, q1, ⟨_, r2, r1, fun x hx => ⟨List.mem_range.1 (r3 hx), ha₀.1 _ (by simp [seedLimit, hr]) x (mem_stored.1 hx)⟩⟩, fun h => by omega⟩
      | failed _ _ _ cause err after => exact absurd rfl cause.ne_ok
  | method m =>
    obtain ⟨⟨e', p'⟩, w1, h1, h2⟩ := scClustering_spec hs hc hsm
    rw [hok] at h1
    cases h1
    rcases h2 with h2 | ⟨hacc, -, M, cl', hlive, hp, h2⟩
    · exact absurd rfl h2.ne_ok
    · refine ⟨?_, hacc⟩
      cases h2 with
      | early _ _ _ leak cause unt err live leaked => exact absurd rfl cause.ne_ok
      | late _ _ _ L id l cause err search labels lt pos cap lab' live => exact absurd rfl cause.ne_ok
      | done _ _ rows order L2 L3 L id l data lab' live =>
        have hv := hacc.options
        have hk : 0 < cl'.numClusters := by rw [data.count]; exact List.length_pos_iff.2 data.seeds_ne
        obtain ⟨s, -, hs2, hs3⟩ := data.seed_of_lt hv.size_two hk
        obtain ⟨rows₀, hn₀, he⟩ := data.nng
        rw [he, Ne, stored_eq_nil] at hs3
        rcases hn₀ with ⟨ht, ans, h3, h4⟩ | ⟨ht, h3⟩
        · refine ⟨fun h => by omega, fun hr => ?_⟩
          rw [h4 s hs2] at hs3
          cases hav : ans s with
          | none => simp [ansRows, hav, nbrs] at hs3
          | some a =>
            obtain ⟨r1, r2, r3⟩ := h3.row s a hav
            have hsP : s ∈ P := by
              by_contra hsP
              rw [h3.none_of s hsP] at hav; cases hav
            have hcr := h3.crit s hsP
            rw [hav] at hcr
            exact ⟨s, hsP, ⟨a, r2, r1, fun x hx => ⟨List.mem_range.1 (r3 hx), hcr.1 _ (by simp [seedLimit, hr]) x hx⟩⟩, fun h => by omega⟩
        · rcases h3.row s hs2 with h4 | ⟨hsP, W, hW, -⟩
          · exact absurd h4 hs3
          refine ⟨fun _ t ht' => ?_, fun hr => ?_⟩
          · have hcnt := hW.types t ht'
            rw [List.countP_eq_length_filter] at hcnt
            refine hcnt.trans (List.subperm_of_subset (hW.nodup.filter _) fun x hx => ?_).length_le
            obtain ⟨h5, h6⟩ := List.mem_filter.1 hx
            exact List.mem_filter.2 ⟨List.mem_range.2 (hW.range x h5), h6⟩
          have hlim : seedLimit o = some o.seedSupplied := by simp [seedLimit, hr]
          have hin : ∀ x ∈ W, within s x o.seedSupplied := by
            intro x hx
            by_cases hxs : x = s
            · rw [hxs]; exact hself ht hr s hs2
            · obtain ⟨a, hxa, ⟨hA, -⟩ | ⟨t, -, hA, -⟩⟩ := hW.from_answer x hx hxs
              · exact hA.1 _ hlim x hxa
              · exact hA.1 _ hlim x hxa
          refine ⟨s, hsP, ⟨W, hW.nodup, hW.len, fun x hx => ⟨hW.range x hx, hin x hx⟩⟩, fun _ t ht' => ?_⟩
          have hcnt := hW.types t ht'
          rw [List.countP_eq_length_filter] at hcnt
          refine ⟨(W.filter fun x => lab x = t).take (c t), (hW.nodup.filter _).sublist (List.take_sublist _ _), by rw [List.length_take]; exact Nat.min_eq_left hcnt, fun x hx => ?_⟩
          obtain ⟨hxW, hxt⟩ := List.mem_filter.1 (List.mem_of_mem_take hx)
          exact ⟨hW.range x hxW, by simpa using hxt, hin x hxW⟩

/-- An accepted call succeeds when its constraints can be met. -/
theorem ok_of_solvable {cfg : Cfg} {spi : Spi F} {le : Nat → Nat → Nat → Prop} {within : Nat → Nat → F → Prop} {dist : Nat → Nat → F} {o : Options F} {ob : ClObj}
    (hs : SpiOk spi ob.cl.n (Nearest le within) dist False) {P : List Nat} {lab c : Nat → Nat} {w : World} (hc : CallOk cfg o ob P lab c w) (hacc : Accepts cfg spi.valid spi.numPoints o ob.cl P)
    (hw : w.NoFail) (hsup : Supported cfg ob.cl.n o c) (hsol : CanMeet ob.cl.n within o P lab c) : ∃ p w', scClustering cfg spi o (some ob) w = some ((.ok, p), w') := by
  cases hsm : o.seedMethod with
  | unknown => exact absurd hsm hacc.options.seed
  | batches =>
    obtain ⟨h1, h2, h3⟩ := hsup.batches hsm
    refine C42_solution_batches hs hc hsm h1 hacc h3 hw h2 fun hr => ?_
    obtain ⟨v, hv, h4, -⟩ := hsol.radius hr
    exact ⟨v, hv, h4⟩
  | method m =>
    obtain ⟨h1, h2, h3, h4⟩ := hsup.method m hsm
    by_cases ht : 2 ≤ o.numTypes
    · refine C42_solution_types hs hc hsm ht hacc hw h1 ⟨h2, h3⟩ (h4 ht) (hsol.types ht) fun hr => ?_
      obtain ⟨v, hv, h5, h6⟩ := hsol.radius hr
      exact ⟨v, hv, h5, h6 ht⟩
    · refine C42_solution hs hc hsm (by omega) hacc hw h1 ⟨h2, h3⟩ fun hr => ?_
      obtain ⟨v, hv, h5, -⟩ := hsol.radius hr
      exact ⟨v, hv, h5⟩

theorem CanMeet.weaken {n : Nat} {within : Nat → Nat → F → Prop} {o o' : Options F} {P P' : List Nat} {lab c c' : Nat → Nat} (h : CanMeet n within o P lab c) (hw : Weaker n within o P c o' P' c')
    (hP : ∀ p ∈ P, p < n) : CanMeet n within o' P' lab c' := by
  refine ⟨fun ht t ht' => ?_, fun hr => ?_⟩
  · obtain ⟨h1, h2, h3⟩ := hw.types ht
    exact (h3 t ht').trans (h.types h1 t (by omega))
  · obtain ⟨h1, h2⟩ := hw.radius hr
    obtain ⟨v, hv, ⟨l, l1, l2, l3⟩, h4⟩ := h.radius h1
    have hvn := hP v hv
    refine ⟨v, hw.primary hv, ⟨l.take o'.sizeConstraint, l1.sublist (List.take_sublist _ _), ?_, fun x hx => ?_⟩, fun ht t ht' => ?_⟩
    · rw [List.length_take, l2]; exact Nat.min_eq_left hw.size
    · obtain ⟨h5, h6⟩ := l3 x (List.mem_of_mem_take hx)
      exact ⟨h5, h2 v x hvn h5 h6⟩
    · obtain ⟨h5, h6, h7⟩ := hw.types ht
      obtain ⟨l, l1, l2, l3⟩ := h4 h5 t (by omega)
      refine ⟨l.take (c' t), l1.sublist (List.take_sublist _ _), ?_, fun x hx => ?_⟩
      · rw [List.length_take, l2]; exact Nat.min_eq_left (h7 t ht')
      · obtain ⟨h8, h9, h10⟩ := l3 x (List.mem_of_mem_take hx)
        exact ⟨h8, h9, h2 v x hvn h8 h10⟩

/-- C74. When a call succeeds, a call with weaker constraints for the same points succeeds as well: with a smaller size constraint, more primary points, a wider seed radius or none, and smaller type constraints or
none. The seed method, the methods for unassigned points and their radii may be different. Nothing fails during the second call, its options are valid and supported. With types, points are within the seed radius of
themselves. -/
theorem C74_weaker {cfg : Cfg} {spi : Spi F} {le : Nat → Nat → Nat → Prop} {within : Nat → Nat → F → Prop} {dist : Nat → Nat → F} {o o' : Options F} {ob ob' : ClObj} (hn : ob'.cl.n = ob.cl.n)
    (hs : SpiOk spi ob.cl.n (Nearest le within) dist False) {P P' : List Nat} {lab c c' : Nat → Nat} {w w' : World} (hc : CallOk cfg o ob P lab c w) (hc' : CallOk cfg o' ob' P' lab c' w')
    (hself : 2 ≤ o.numTypes → o.seedRadius = .useSupplied → ∀ v, v < ob.cl.n → within v v o.seedSupplied) (hfit : o.seedMethod = .batches → BatchFits o ob.cl.n)
    (hacc' : Accepts cfg spi.valid spi.numPoints o' ob'.cl P') (hw' : w'.NoFail) (hsup : Supported cfg ob.cl.n o' c') (hweak : Weaker ob.cl.n within o P c o' P' c')
    (hok : ∃ p w1, scClustering cfg spi o (some ob) w = some ((.ok, p), w1)) : ∃ p w1, scClustering cfg spi o' (some ob') w' = some ((.ok, p), w1) := by
  have h := (solvable_of_ok hs hc hself hfit hok).1.weaken hweak hc.arrays.range
  exact ok_of_solvable (hn ▸ hs) hc' hacc' hw' (hn ▸ hsup) (hn ▸ h)

/-- C74, on whether a call succeeds: an accepted and supported call during which nothing fails succeeds exactly when its constraints can be met. -/
theorem C74_solvable {cfg : Cfg} {spi : Spi F} {le : Nat → Nat → Nat → Prop} {within : Nat → Nat → F → Prop} {dist : Nat → Nat → F} {o : Options F} {ob : ClObj}
    (hs : SpiOk spi ob.cl.n (Nearest le within) dist False) {P : List Nat} {lab c : Nat → Nat} {w : World} (hc : CallOk cfg o ob P lab c w) (hacc : Accepts cfg spi.valid spi.numPoints o ob.cl P)
    (hw : w.NoFail) (hsup : Supported cfg ob.cl.n o c) (hself : 2 ≤ o.numTypes → o.seedRadius = .useSupplied → ∀ v, v < ob.cl.n → within v v o.seedSupplied) :
    (∃ p w', scClustering cfg spi o (some ob) w = some ((.ok, p), w')) ↔ CanMeet ob.cl.n within o P lab c :=
  ⟨fun h => (solvable_of_ok hs hc hself (fun hm => (hsup.batches hm).1) h).1, ok_of_solvable hs hc hacc hw hsup⟩

/-! ### Examples -/

theorem typeRadiusOpts_accepts : Accepts sampleCfg (builtinSpi (some lineData)).valid (builtinSpi (some lineData)).numPoints (typeRadiusOpts 1) lineObj.cl (List.range 6) :=
  ⟨by decide, by decide, by decide, ⟨rfl, by decide, by decide, Or.inr ⟨by decide, by decide, nofun, by decide, nofun⟩, nofun, Or.inl ⟨rfl, rfl⟩, nofun, Or.inl rfl,
    ⟨Or.inr rfl, nofun, fun _ => by decide⟩, ⟨nofun, nofun⟩, ⟨nofun, nofun⟩, nofun⟩, rfl⟩

theorem typeRadiusOpts_supported : Supported sampleCfg 6 (typeRadiusOpts 1) (fun _ => 1) :=
  ⟨fun m h => by
    cases h
    exact ⟨by simp [TooBig, SeedMethod.IsExclusion]; decide, fun h => absurd h.2 (by decide), fun h => absurd h.2 (by decide), fun _ => by decide⟩, nofun⟩

/-- Points 0 and 1 are within radius 1 of each other and have different types. -/
theorem typeRadiusOpts_solvable : CanMeet 6 lineData.Within (typeRadiusOpts 1) (List.range 6) (fun v => v % 2) (fun _ => 1) :=
  ⟨fun _ => by decide, fun _ => ⟨0, by decide, ⟨[0, 1], by decide, rfl, by decide⟩, fun _ t ht => ⟨[t], by simp, rfl, by
      have ht' : t < 2 := ht
      intro x hx
      rw [List.mem_singleton] at hx
      subst hx
      revert x
      decide⟩⟩⟩

theorem typeRadiusOpts_ok : ∃ p w', scClustering sampleCfg (builtinSpi (some lineData)) (typeRadiusOpts 1) (some lineObj) (sampleWorld [5]) = some ((.ok, p), w') :=
  (C74_solvable lineSpi_nearest (typeRadiusOpts_call 1) typeRadiusOpts_accepts (fun _ _ => rfl) typeRadiusOpts_supported fun _ _ => by decide).2 typeRadiusOpts_solvable

/-- Clusters of two points within a radius of three, with batches and without types. -/
def looseOpts (bs : Nat) : Options Int :=
  { (defaultOptions : Options Int) with sizeConstraint := 2, seedMethod := .batches, batchSize := bs, seedRadius := .useSupplied, seedSupplied := 3, primaryMethod := .anyNeighbor }

theorem loose_call (bs : Nat) : CallOk sampleCfg (looseOpts bs) lineObj (List.range 6) (fun v => v % 2) (fun _ => 0) (sampleWorld [5]) :=
  line_callOk ⟨fun _ => rfl, nofun, by decide, nofun, nofun⟩ ⟨by show 6 * 2 ≤ 2 ^ 64 - 1; decide, fun h => absurd h (by show ¬ 2 ≤ 0; decide)⟩

example (bs : Nat) : ∃ p w', scClustering sampleCfg (builtinSpi (some lineData)) (looseOpts bs) (some lineObj) (sampleWorld [5]) = some ((.ok, p), w') := by
  have hfit : BatchFits (looseOpts bs) 6 := by
    have : batchLen (looseOpts bs) 6 ≤ 6 := by unfold batchLen; split <;> omega
    show 2 * batchLen (looseOpts bs) 6 < 2 ^ 32
    omega
  exact C74_weaker (ob := lineObj) (ob' := lineObj) rfl lineSpi_nearest (typeRadiusOpts_call 1) (loose_call bs) (fun _ _ => by decide) nofun
    ⟨by decide, by decide, by decide, ⟨rfl, by show 2 ≤ 2; decide, by show 2 ≤ 6; decide, Or.inl ⟨by show 0 < 2; decide, rfl, rfl, rfl⟩, nofun, Or.inl ⟨rfl, rfl⟩, nofun, Or.inl rfl,
      ⟨Or.inr rfl, nofun, fun _ => rfl⟩, ⟨nofun, nofun⟩, ⟨nofun, nofun⟩, fun _ => ⟨by show 0 < 2; decide, rfl, rfl⟩⟩, rfl⟩
    (fun _ _ => rfl) ⟨nofun, fun _ => ⟨hfit, by decide, Or.inr rfl⟩⟩
    ⟨by show 2 ≤ 2; decide, fun _ h => h, fun _ => ⟨rfl, fun v x hv hx => (by decide : ∀ v < 6, ∀ x < 6, lineData.Within v x 1 → lineData.Within v x 3) v hv x hx⟩, fun h => absurd h (by show ¬ 2 ≤ 0; decide)⟩
    typeRadiusOpts_ok

/-- When only point 5 is a primary point there is no cluster within radius 1, and the call does not succeed. -/
example : ¬ ∃ p w', scClustering sampleCfg (builtinSpi (some lineData)) typeFarOpts (some lineObj) (sampleWorld [5]) = some ((.ok, p), w') := by
  intro h
  obtain ⟨v, hv, ⟨l, h4, h5, h6⟩, -⟩ := (solvable_of_ok lineSpi_nearest typeFarOpts_call (fun _ _ => by decide) nofun h).1.radius rfl
  rw [List.mem_singleton] at hv
  subst hv
  have hl : l ⊆ [5] := fun x hx => (by decide : ∀ x, x < 6 → lineData.Within 5 x typeFarOpts.seedSupplied → x ∈ [5]) x (h6 x hx).1 (h6 x hx).2
  have := (List.subperm_of_subset h4 hl).length_le
  rw [h5] at this
  exact absurd this (by decide)

end Scc
