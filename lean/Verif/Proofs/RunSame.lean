/-
Two calls that build the same digraph and have the same stages return the same code and the same clusters.
-/
import Verif.Proofs.TypesUnique
import Verif.Props.StableNng

set_option linter.unusedSimpArgs false
set_option linter.unusedVariables false

namespace Scc

variable {F : Type} [FloatOps F] {cfg : Cfg} {A : Criterion F}

/-- How a call ends when nothing goes wrong with memory, the sizes or the search. -/
def Undisturbed (cfg : Cfg) (A : Criterion F) (dist : Nat → Nat → F) (n : Nat) (o : Options F) (m : SeedMethod) (P : List Nat) (lab c : Nat → Nat)
    (r : Option ((ErrorCode × Option ClObj) × World)) : Prop :=
  (∃ ob b w' rows order L2 L3 L, r = some ((.ok, some ob), w') ∧ ob.cl.label = some b ∧ RunData cfg A dist n o m P lab c False rows order L2 L3 L ob.cl.numClusters b.buf) ∨
  ∃ p w', r = some ((.noSolution, p), w') ∧ (NoSeeds A n o P lab c ∨
    ∃ rows order, NngStored cfg A n o P lab c rows ∧ order.Perm (List.range n) ∧ BuildOrder cfg m rows n order ∧ BadEstimate dist o rows (greedySeeds rows order))

theorem run_undisturbed {spi : Spi F} {dist : Nat → Nat → F} {o : Options F} {ob : ClObj}
    (hs : SpiOk spi ob.cl.n A dist False) {P : List Nat} {lab c : Nat → Nat} {w : World} (hc : CallOk cfg o ob P lab c w) {m : SeedMethod} (hm : o.seedMethod = .method m)
    (hacc : Accepts cfg spi.valid spi.numPoints o ob.cl P) (hw : w.NoFail) (hbig : ¬ TooBig cfg ob.cl.n o.sizeConstraint m) (hsum : 2 ≤ o.numTypes → sumTo c o.numTypes ≤ o.sizeConstraint) :
    Undisturbed cfg A dist ob.cl.n o m P lab c (scClustering cfg spi o (some ob) w) := by
  obtain ⟨⟨e, p⟩, w', h1, h2⟩ := scClustering_spec hs hc hm
  rcases h2 with h2 | ⟨-, -, M, cl', hlive, hp, h2⟩
  · exact absurd hacc fun h => h2.cause.not_accepts h
  · have hlost : (¬ w.NoFail ∨ False) = False := by simp [hw]
    dsimp only at hp
    subst hp
    cases h2 with
    | done _ _ rows order L2 L3 L id l data lab' live =>
      rw [hlost] at data
      exact Or.inl ⟨⟨ob.id, cl'⟩, ⟨id, l⟩, w', rows, order, L2, L3, L, h1, by rw [lab'.eq], data⟩
    | early _ _ _ leak cause unt err live leaked =>
      rcases cause with (⟨-, h⟩ | ⟨-, h⟩ | ⟨-, h⟩) | ⟨rfl, h⟩ | ⟨-, h3, h4⟩
      · exact absurd h hbig
      · exact absurd hw h
      · rw [hlost] at h; exact h.elim
      · exact Or.inr ⟨_, _, h1, h⟩
      · have : sumTo c o.numTypes ≤ o.sizeConstraint := hsum h3
        unfold sumTo at this
        omega
    | late _ _ _ L id l cause err search labels lt pos cap lab' live =>
      exfalso
      rcases cause with ⟨-, h⟩ | ⟨-, h⟩ | ⟨-, h⟩
      · exact h
      · exact h hw
      · rw [hlost] at h; exact h

theorem RunData.some_row {dist : Nat → Nat → F} {n : Nat} {o : Options F} {m : SeedMethod} {P : List Nat} {lab c : Nat → Nat} {lost : Prop}
    {rows : Nat → List Nat} {order : List Nat} {L2 L3 L : Nat → Option Nat} {k : Nat} {l : Buf Int} (hS : 2 ≤ o.sizeConstraint)
    (h : RunData cfg A dist n o m P lab c lost rows order L2 L3 L k l) : ∃ v < n, rows v ≠ [] := by
  obtain ⟨s, -, hs2, hs3⟩ := h.seed_of_lt hS (show 0 < k by rw [h.count]; exact List.length_pos_iff.2 h.seeds_ne)
  exact ⟨s, hs2, hs3⟩

theorem BadEstimate.same {dist : Nat → Nat → F} {n : Nat} {o o' : Options F} (ho : SameStages o o') {m : SeedMethod} {rows rows' : Nat → List Nat} {order order' : List Nat}
    (hstable : m = .inwardsUpdating ∨ m = .exclusionUpdating → cfg.stableSeeds = true) (hrows : ∀ v, v < n → rows v = rows' v) (h1 : order.Perm (List.range n)) (h1' : order'.Perm (List.range n))
    (h2 : BuildOrder cfg m rows n order) (h2' : BuildOrder cfg m rows' n order') :
    BadEstimate dist o rows (greedySeeds rows order) ↔ BadEstimate dist o' rows' (greedySeeds rows' order') := by
  have hseeds := seeds_unique hstable hrows h1 h1' h2 h2'
  have hlt : ∀ s ∈ greedySeeds rows order, s < n := fun s hs => List.mem_range.1 (h1.mem_iff.1 ((greedySeeds_sublist _ _).subset hs))
  unfold BadEstimate UsesEstimate
  rw [← hseeds, ← seedEstimate_congr fun s hs => hrows s (hlt s hs), ho.primaryMethod, ho.secondaryMethod, ho.primary.1, ho.secondary.1]

theorem Undisturbed.same (hdet : Determined cfg A) {dist : Nat → Nat → F} {n : Nat} {o o' : Options F} (ho : SameStages o o') {m : SeedMethod} {P : List Nat} {lab c lab' c' : Nat → Nat}
    (hP : ∀ v ∈ P, v < n) (hS : 2 ≤ o.sizeConstraint) (hS' : 2 ≤ o'.sizeConstraint)
    (hrows : ∀ {rows rows'}, NngStored cfg A n o P lab c rows → NngStored cfg A n o' P lab' c' rows' → ∀ v, v < n → rows v = rows' v)
    (hno : ∀ {rows}, NngStored cfg A n o P lab c rows → (∃ v < n, rows v ≠ []) → ¬ NoSeeds A n o' P lab' c')
    (hno' : ∀ {rows}, NngStored cfg A n o' P lab' c' rows → (∃ v < n, rows v ≠ []) → ¬ NoSeeds A n o P lab c)
    (hstable : m = .inwardsUpdating ∨ m = .exclusionUpdating → cfg.stableSeeds = true) {r r' : Option ((ErrorCode × Option ClObj) × World)}
    (h : Undisturbed cfg A dist n o m P lab c r) (h' : Undisturbed cfg A dist n o' m P lab' c' r') : SameClusters n r r' := by
  rcases h with ⟨ob, b, v, rows, order, L2, L3, L, h1, h2, h3⟩ | ⟨p, v, h1, h2⟩ <;>
    rcases h' with ⟨ob', b', v', rows', order', M2, M3, M, h1', h2', h3'⟩ | ⟨p', v', h1', h2'⟩
  · obtain ⟨k1, k2⟩ := RunData.unique_rows hdet ho hP (hrows h3.nng h3'.nng) hstable h3 h3'
    have k2' := k2.resolve_right fun h => h.1
    refine ⟨_, _, _, _, _, h1, h1', fun _ => ⟨_, _, b, b', rfl, rfl, h2, h2', k1, fun v hv => ⟨_, h3.labels v hv, ?_⟩⟩⟩
    rw [← k2' v hv, h3.labels v hv]
  · exfalso
    rcases h2' with h | ⟨rows', order', g1, g2, g3, g4⟩
    · exact hno h3.nng (h3.some_row hS) h
    · exact h3.estimate ((BadEstimate.same ho hstable (hrows h3.nng g1) h3.perm g2 h3.method g3).2 g4)
  · exfalso
    rcases h2 with h | ⟨rows, order, g1, g2, g3, g4⟩
    · exact hno' h3'.nng (h3'.some_row hS') h
    · exact h3'.estimate ((BadEstimate.same ho hstable (hrows g1 h3'.nng) g2 h3'.perm g3 h3'.method).1 g4)
  · exact ⟨_, _, _, _, _, h1, h1', nofun⟩

/-! ### Types -/

omit [FloatOps F] in
theorem Renamed.symm {n T T' : Nat} {lab c lab' c' π : Nat → Nat} (h : Renamed n T T' lab c lab' c' π) : ∃ π', Renamed n T' T lab' c' lab c π' := by
  classical
  have hex : ∀ s, s < T' → 0 < c' s → ∃ t, t < T ∧ 0 < c t ∧ π t = s := h.onto
  let ρ : Nat → Nat := fun s => if hs : ∃ t, t < T ∧ 0 < c t ∧ π t = s then hs.choose else 0
  have hρ : ∀ s, s < T' → 0 < c' s → ρ s < T ∧ 0 < c (ρ s) ∧ π (ρ s) = s := by
    intro s hs hc
    have hx := hex s hs hc
    have : ρ s = hx.choose := dif_pos hx
    rw [this]
    exact hx.choose_spec
  refine ⟨ρ, fun s hs hc => (hρ s hs hc).1, fun s hs hc => ?_, fun s hs hc v hv => ?_, fun s t hs ht hcs hct he => ?_, fun t ht hc => ?_⟩
  · obtain ⟨k1, k2, k3⟩ := hρ s hs hc
    rw [← h.con _ k1 k2, k3]
  · obtain ⟨k1, k2, k3⟩ := hρ s hs hc
    rw [← h.points _ k1 k2 v hv, k3]
  · rw [← (hρ s hs hcs).2.2, ← (hρ t ht hct).2.2, he]
  · have h1 := h.lt t ht hc
    have h2 : 0 < c' (π t) := by rw [h.con t ht hc]; exact hc
    obtain ⟨k1, k2, k3⟩ := hρ (π t) h1 h2
    exact ⟨π t, h1, h2, h.inj _ _ k1 ht k2 hc k3⟩

omit [FloatOps F] in
/-- When some point has a neighbourhood, it has one under other names for the types. -/
theorem NngStored.not_noSeeds {n : Nat} (hdet : Determined cfg (Strict n A)) {o o' : Options F} {P : List Nat} {lab c lab' c' π : Nat → Nat} {rows : Nat → List Nat} (ht : 2 ≤ o.numTypes) (ht' : 2 ≤ o'.numTypes)
    (hS : o'.sizeConstraint = o.sizeConstraint) (hR : seedLimit o' = seedLimit o) (hr : Renamed n o.numTypes o'.numTypes lab c lab' c' π)
    (h : NngStored cfg (Strict n A) n o P lab c rows) (hne : ∃ v < n, rows v ≠ []) : ¬ NoSeeds (Strict n A) n o' P lab' c' := by
  obtain ⟨r, ⟨h1, -⟩ | ⟨-, h1⟩, he⟩ := h
  · omega
  obtain ⟨v, hv, h0⟩ := hne
  rw [he, Ne, stored_eq_nil] at h0
  have hvP : v ∈ P := ((h1.row v hv).resolve_left h0).1
  obtain ⟨W, ⟨a, k1, k2⟩, -⟩ := h1.takes v hv h0
  rintro (⟨h2, -⟩ | ⟨-, ⟨-, h2⟩ | ⟨s, hs, h2⟩⟩)
  · omega
  · rw [hS, hR] at h2
    rcases h2 v hvP with ⟨g1, g2⟩ | ⟨s, hs, hc, g2⟩
    · rcases k2 with ⟨k2, -⟩ | ⟨-, g, k3, -⟩
      · rw [hr.sum] at g1; omega
      · cases hdet _ _ _ _ _ _ g2 k3
    · obtain ⟨t, ht, hct, rfl⟩ := hr.onto s hs hc
      rw [hr.group ht hct, hr.con t ht hct] at g2
      cases hdet _ _ _ _ _ _ g2 (k1 t ht hct).1
  · obtain ⟨t, ht, hct, rfl⟩ := hr.onto s hs (by omega)
    rw [hr.group ht hct, hr.con t ht hct] at h2
    obtain ⟨⟨-, hwf, -⟩, hlen⟩ := k1 t ht hct
    obtain ⟨g1, g2, g3⟩ := hwf.2 _ rfl
    have := (List.subperm_of_subset g2 g3).length_le
    omega

/-! ### Searches with one answer -/

omit [FloatOps F] in
theorem NngStored.unique_one (hone : OneAnswer A) {n : Nat} {o : Options F} {P : List Nat} {lab c : Nat → Nat} {rows rows' : Nat → List Nat}
    (h : NngStored cfg A n o P lab c rows) (h' : NngStored cfg A n o P lab c rows') : ∀ v, v < n → rows v = rows' v := by
  by_cases ht : 2 ≤ o.numTypes
  · exact NngStored.renamed hone ht ht rfl rfl (Renamed.refl n o.numTypes lab c) (Or.inr fun t s h _ _ _ => h) h h'
  · obtain ⟨r, ⟨-, ans, h1, h2⟩ | ⟨h1, -⟩, he⟩ := h
    swap
    · omega
    obtain ⟨r', ⟨-, ans', h1', h2'⟩ | ⟨h1', -⟩, he'⟩ := h'
    swap
    · omega
    intro v hv
    have : ans v = ans' v := by
      by_cases hvP : v ∈ P
      · exact hone _ _ _ _ _ _ (h1.crit v hvP) (h1'.crit v hvP)
      · rw [h1.none_of v hvP, h1'.none_of v hvP]
    rw [he, he', h2 v hv, h2' v hv]
    unfold ansRows
    rw [this]

omit [FloatOps F] in
theorem NngStored.not_noSeeds_one {n : Nat} (hone : OneAnswer (Strict n A)) {o : Options F} {P : List Nat} {lab c : Nat → Nat} {rows : Nat → List Nat}
    (h : NngStored cfg (Strict n A) n o P lab c rows) (hne : ∃ v < n, rows v ≠ []) : ¬ NoSeeds (Strict n A) n o P lab c := by
  by_cases ht : 2 ≤ o.numTypes
  · exact h.not_noSeeds (hone.determined cfg) ht ht rfl rfl (Renamed.refl n o.numTypes lab c) hne
  · rintro (⟨-, -, hno⟩ | ⟨h2, -⟩)
    · obtain ⟨s, hs2, hs3⟩ := hne
      obtain ⟨r, ⟨-, ans, h1, h2⟩ | ⟨h1, -⟩, he⟩ := h
      swap
      · omega
      rw [he, Ne, stored_eq_nil, h2 s hs2] at hs3
      by_cases hsP : s ∈ P
      · rw [ansRows, ← hone _ _ _ _ _ _ (hno s hsP) (h1.crit s hsP)] at hs3
        simp [nbrs] at hs3
      · simp [ansRows, h1.none_of s hsP, nbrs] at hs3
    · omega

/-- Two calls with the same options. -/
theorem Undisturbed.same_one {n : Nat} (hone : OneAnswer (Strict n A)) {dist : Nat → Nat → F} {o : Options F} {m : SeedMethod} {P : List Nat} {lab c : Nat → Nat}
    (hP : ∀ v ∈ P, v < n) (hS : 2 ≤ o.sizeConstraint) (hstable : m = .inwardsUpdating ∨ m = .exclusionUpdating → cfg.stableSeeds = true) {r r' : Option ((ErrorCode × Option ClObj) × World)}
    (h : Undisturbed cfg (Strict n A) dist n o m P lab c r) (h' : Undisturbed cfg (Strict n A) dist n o m P lab c r') : SameClusters n r r' :=
  Undisturbed.same (hone.determined cfg) (.refl o) hP hS hS (fun h h' => NngStored.unique_one hone h h') (fun h hne => h.not_noSeeds_one hone hne) (fun h hne => h.not_noSeeds_one hone hne)
    hstable h h'

/-! ### Radii without effect -/

/-- The options have the same number of types, or both have none. -/
def SameTypes (o o' : Options F) : Prop := o'.numTypes = o.numTypes ∨ o'.numTypes < 2 ∧ o.numTypes < 2

omit [FloatOps F] in
theorem SameTypes.lt {o o' : Options F} (h : SameTypes o o') : o'.numTypes < 2 ↔ o.numTypes < 2 := by unfold SameTypes at h; omega

omit [FloatOps F] in
theorem SameTypes.eq {o o' : Options F} (h : SameTypes o o') (h2 : 2 ≤ o'.numTypes) : o'.numTypes = o.numTypes := by unfold SameTypes at h; omega

/-- Answers for the limit `R'` are acceptable for `R`. -/
structure Accommodates (A : Criterion F) (R' R : Option F) : Prop where
  crit : ∀ set k q a, A set k R' q a → A set k R q a
  none : R = none → R' = none

omit [FloatOps F] in
theorem Answers.accommodate {R R' : Option F} (hR : Accommodates A R' R) {L : List Nat} {k : Nat} {Q : List Nat} {ans : Nat → Option (List Nat)} (h : Answers A L k R' Q ans) : Answers A L k R Q ans :=
  ⟨fun q hq => hR.crit _ _ _ _ (h.crit q hq), h.none_of, fun hn => h.all (hR.none hn), h.row⟩

omit [FloatOps F] in
theorem TypeInfeasible.accommodate {n S : Nat} {R R' : Option F} (hR : Accommodates A R' R) {lab c : Nat → Nat} {T q : Nat} (h : TypeInfeasible A n S R' lab c T q) : TypeInfeasible A n S R lab c T q :=
  h.imp (fun h => ⟨h.1, hR.crit _ _ _ _ h.2⟩) fun ⟨t, ht, hc, h⟩ => ⟨t, ht, hc, hR.crit _ _ _ _ h⟩

omit [FloatOps F] in
theorem NngStored.accommodate {n : Nat} {o o' : Options F} {P : List Nat} {lab c : Nat → Nat} {rows : Nat → List Nat} (hT : SameTypes o o') (hS : o'.sizeConstraint = o.sizeConstraint)
    (hR : Accommodates A (seedLimit o') (seedLimit o)) (h : NngStored cfg A n o' P lab c rows) : NngStored cfg A n o P lab c rows := by
  obtain ⟨r, h1, he⟩ := h
  refine ⟨r, ?_, he⟩
  unfold NngOf at h1
  rw [hS] at h1
  rcases h1 with ⟨h0, ans, h1, h2⟩ | ⟨h0, h1⟩
  · exact Or.inl ⟨hT.lt.1 h0, ans, h1.accommodate hR, h2⟩
  · have hT' : o'.numTypes = o.numTypes := hT.eq h0
    rw [hT'] at h0 h1
    refine Or.inr ⟨h0, fun v hv => (h1.row v hv).imp_right ?_, fun v hv h0 => ⟨fun hn => (h1.infeasible v hv h0).1 (hR.none hn), (h1.infeasible v hv h0).2.accommodate hR⟩, fun v hv h0 => ?_⟩
    · rintro ⟨hvP, W, hW, hr⟩
      refine ⟨hvP, W, { hW with from_answer := fun x hx hxv => ?_ }, hr⟩
      obtain ⟨l, hxl, ⟨hA, hl⟩ | ⟨t, ht, hA, hl⟩⟩ := hW.from_answer x hx hxv
      · exact ⟨l, hxl, .inl ⟨hR.crit _ _ _ _ hA, hl⟩⟩
      · exact ⟨l, hxl, .inr ⟨t, ht, hR.crit _ _ _ _ hA, hl⟩⟩
    · obtain ⟨W, ⟨a, k1, k2⟩, k3⟩ := h1.takes v hv h0
      refine ⟨W, ⟨a, fun t ht hc => ⟨hR.crit _ _ _ _ (k1 t ht hc).1, (k1 t ht hc).2⟩, k2.imp_right ?_⟩, k3⟩
      rintro ⟨g1, g, g2, g3⟩
      exact ⟨g1, g, hR.crit _ _ _ _ g2, g3⟩

omit [FloatOps F] in
theorem SearchStage.accommodate {R R' : Option F} (hR : Accommodates A R' R) {n : Nat} {um : UnassignedMethod} {base seeds P : List Nat} {L L' : Nat → Option Nat}
    (h : SearchStage A n um base seeds R' P L L') : SearchStage A n um base seeds R P L L' := by
  cases um with
  | closestAssigned => obtain ⟨ans, h1, h2⟩ := h; exact ⟨ans, h1.accommodate hR, h2⟩
  | closestSeed => obtain ⟨ans, h1, h2⟩ := h; exact ⟨ans, h1.accommodate hR, h2⟩
  | _ => exact h

/-- A run with `o'` is a run with `o`, which has wider limits. -/
theorem Undisturbed.accommodate {dist : Nat → Nat → F} {n : Nat} {o o' : Options F} {m : SeedMethod} {P : List Nat} {lab c : Nat → Nat} (hT : SameTypes o o')
    (hS : o'.sizeConstraint = o.sizeConstraint) (hpm : o'.primaryMethod = o.primaryMethod) (hsm : o'.secondaryMethod = o.secondaryMethod)
    (hpe : UsesEstimate o'.primaryMethod o'.primaryRadius ↔ UsesEstimate o.primaryMethod o.primaryRadius)
    (hse : UsesEstimate o'.secondaryMethod o'.secondaryRadius ↔ UsesEstimate o.secondaryMethod o.secondaryRadius)
    (hR : Accommodates A (seedLimit o') (seedLimit o))
    (hR1 : ∀ est, Accommodates A (stageRadius o' o'.primaryMethod o'.primaryRadius o'.primarySupplied est) (stageRadius o o.primaryMethod o.primaryRadius o.primarySupplied est))
    (hR2 : ∀ est, Accommodates A (stageRadius o' o'.secondaryMethod o'.secondaryRadius o'.secondarySupplied est) (stageRadius o o.secondaryMethod o.secondaryRadius o.secondarySupplied est))
    {r : Option ((ErrorCode × Option ClObj) × World)} (h : Undisturbed cfg A dist n o' m P lab c r) : Undisturbed cfg A dist n o m P lab c r := by
  have hbad : ∀ rows seeds, BadEstimate dist o' rows seeds ↔ BadEstimate dist o rows seeds := by
    intro rows seeds
    unfold BadEstimate
    rw [hpe, hse]
  rcases h with ⟨ob, b, v, rows, order, L2, L3, L, h1, h2, h3⟩ | ⟨p, v, h1, h2⟩
  · refine Or.inl ⟨ob, b, v, rows, order, L2, L3, L, h1, h2, { h3 with nng := h3.nng.accommodate hT hS hR, estimate := fun h => h3.estimate ((hbad _ _).2 h), staged := ?_ }⟩
    have hst := h3.staged
    refine ⟨?_, ?_, ?_⟩
    · rw [show decide (o.numTypes < 2) = decide (o'.numTypes < 2) from decide_eq_decide.2 hT.lt.symm, ← hpm]; exact hst.nng
    · have := hst.first.accommodate (hR1 _)
      rw [hpm] at this
      rwa [hpm] at *
    · have := hst.second.imp_left fun h => h.accommodate (hR2 _)
      rwa [hsm] at this
  · refine Or.inr ⟨p, v, h1, h2.imp ?_ ?_⟩
    · unfold NoSeeds
      rw [hS]
      rintro (⟨h1, h2, h3⟩ | ⟨h1, h2⟩)
      · exact Or.inl ⟨hT.lt.1 h1, fun h => h2 (hR.none h), fun q hq => hR.crit _ _ _ _ (h3 q hq)⟩
      · have hT' : o'.numTypes = o.numTypes := hT.eq h1
        rw [hT'] at h1 h2
        rcases h2 with ⟨h2, h3⟩ | h2
        · exact Or.inr ⟨h1, Or.inl ⟨fun h => h2 (hR.none h), fun q hq => (h3 q hq).accommodate hR⟩⟩
        · exact Or.inr ⟨h1, Or.inr h2⟩
    · rintro ⟨rows, order, g1, g2, g3, g4⟩
      exact ⟨rows, order, g1.accommodate hT hS hR, g2, g3, (hbad _ _).1 g4⟩

end Scc
