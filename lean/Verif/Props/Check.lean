/-
Properties of `scc_check_clustering`: C18 and C19. `MeetsConstraints` and `CheckOk` are in Spec/Check.lean.
-/
import Verif.Proofs.Check
import Verif.Props.Batches
import Verif.Props.Options
import Mathlib.Data.Fintype.EquivFin

set_option linter.unusedSimpArgs false
set_option linter.unusedVariables false

namespace Scc

variable {F : Type} [FloatOps F]

/-- C18. For a valid, non-empty clustering and valid options the check answers "true" exactly when the constraints are met, for arbitrary values in the label array.
It fails only for lack of memory, and then it does not answer "true". Memory is as before. -/
theorem C18_check_exact {cfg : Cfg} {o : Options F} {ob : ClObj} {P : List Nat} {lab c : Nat → Nat} {w : World} (hc : CheckOk cfg o ob P lab c w)
    (hi : ob.cl.isInitialized cfg = true) (hk : 0 < ob.cl.numClusters) (hv : ValidOptions o ob.cl.n P) :
    ∃ e ok w' lb, checkClustering cfg (some ob) o true w = some ((e, some ok), w') ∧ ob.cl.label = some lb ∧ w'.live = w.live ∧
      (e = .ok ∧ (ok = true ↔ MeetsConstraints cfg o P lab c ob.cl.n ob.cl.numClusters lb.buf) ∨ e = .noMemory ∧ ok = false ∧ ¬ w.NoFail) := by
  obtain ⟨⟨e, r⟩, w', h1, h2, ⟨h3, -, -, -, -, lb, ok, h4, h5, h6⟩ | ⟨h3, h4, -⟩⟩ := checkClustering_spec hc
  · dsimp only at h3 h5
    subst h3 h5
    exact ⟨.ok, ok, w', lb, h1, h4, h2, Or.inl ⟨rfl, h6⟩⟩
  · dsimp only at h4
    subst h4
    cases hl : ob.cl.label with
    | none => exact absurd hl ((isInitialized_iff.1 hi).2.2.2.2 hk)
    | some lb =>
      refine ⟨e, false, w', lb, h1, rfl, h2, Or.inr ?_⟩
      rcases h3 with ⟨-, h | h⟩ | ⟨h, -⟩ | ⟨h, hn⟩
      · rw [hi] at h; cases h
      · omega
      · exact absurd hv h
      · exact ⟨h, rfl, hn⟩

/-- C18, other calls: with an invalid or empty clustering or invalid options the check reports an error and does not answer "true". -/
theorem C18_check_rejects {cfg : Cfg} {o : Options F} {ob : ClObj} {P : List Nat} {lab c : Nat → Nat} {w : World} (hc : CheckOk cfg o ob P lab c w)
    (h : ¬ (ob.cl.isInitialized cfg = true ∧ 0 < ob.cl.numClusters ∧ ValidOptions o ob.cl.n P)) :
    ∃ e w', checkClustering cfg (some ob) o true w = some ((e, some false), w') ∧ e ≠ .ok ∧ w'.err.code = e ∧ w'.live = w.live := by
  obtain ⟨⟨e, r⟩, w', h1, h2, ⟨-, -, h3, h4, h5, -⟩ | ⟨h3, h4, h5⟩⟩ := checkClustering_spec hc
  · exact absurd ⟨h3, h4, h5⟩ h
  · dsimp only at h4
    subst h4
    exact ⟨e, w', h1, h3.ne_ok, h5, h2⟩

/-- A clustering of six points with the given labels. -/
def labelObj (k : Nat) (l : List Int) : ClObj := ⟨5, clusteringVersion, 6, k, some ⟨6, Buf.ofList l⟩, true⟩

/-- Options with the primary points 0, 2 and 3 and clusters of two points of different types. -/
def checkOpts : Options Int :=
  { (defaultOptions : Options Int) with
    sizeConstraint := 2, numTypes := 2, typeConstraints := some (Buf.ofList [1, 1]), lenTypeLabels := 6, typeLabels := some (Buf.ofList [0, 1, 0, 1, 0, 1])
    lenPrimary := 3, primary := some (Buf.ofList [0, 2, 3]) }

theorem checkOpts_arrays : OptionArrays 6 checkOpts [0, 2, 3] (fun v => v % 2) (fun _ => 1) where
  all := nofun
  primary := by
    intro b h
    cases h
    refine ⟨rfl, fun i x h => ?_⟩
    rw [Buf.get_ofList]; exact h
  range := by decide
  labels := by
    intro b _ h v hv
    cases h
    revert v
    decide
  constraints := by
    intro b _ h t ht
    cases h
    revert t
    decide

/-- The hypotheses of C18 hold for any six labels. -/
example (a b c d e f : Int) :
    CheckOk sampleCfg checkOpts (labelObj 2 [a, b, c, d, e, f]) [0, 2, 3] (fun v => v % 2) (fun _ => 1) (sampleWorld [5, 6]) ∧
      (labelObj 2 [a, b, c, d, e, f]).cl.isInitialized sampleCfg = true ∧ ValidOptions checkOpts 6 [0, 2, 3] := by
  refine ⟨⟨sampleCfg_valid, le_of_eq (by rfl), ?_, checkOpts_arrays, fun _ => by show 2 * 2 ≤ 2 ^ 64 - 1; decide⟩, rfl, ?_⟩
  · intro _ lb h v hv
    cases h
    rw [Buf.get_ofList]
    exact ⟨_, List.getElem?_eq_getElem hv⟩
  · exact ⟨rfl, by decide, by decide, Or.inr ⟨by decide, by decide, nofun, by decide, nofun⟩, nofun, Or.inr ⟨nofun, by decide, by decide⟩, nofun, Or.inl rfl, ⟨Or.inl rfl, nofun, nofun⟩,
      ⟨nofun, nofun⟩, ⟨nofun, nofun⟩, nofun⟩

/-- Labels that meet the constraints; a primary point without cluster; a cluster with points of one type only; a label out of range. -/
example : ((checkClustering sampleCfg (some (labelObj 2 [0, 0, 1, 1, sampleCfg.na, 0])) checkOpts true (sampleWorld [5, 6])).map (·.1)) = some (.ok, some true) := by decide
example : ((checkClustering sampleCfg (some (labelObj 2 [0, 0, sampleCfg.na, 1, 1, 0])) checkOpts true (sampleWorld [5, 6])).map (·.1)) = some (.ok, some false) := by decide
example : ((checkClustering sampleCfg (some (labelObj 2 [0, 1, 0, 1, 0, 1])) checkOpts true (sampleWorld [5, 6])).map (·.1)) = some (.ok, some false) := by decide
example : ((checkClustering sampleCfg (some (labelObj 2 [0, 0, 1, 1, 2, -7])) checkOpts true (sampleWorld [5, 6])).map (·.1)) = some (.ok, some false) := by decide

/-- The check after a successful call. -/
theorem check_of_success {cfg : Cfg} {spi : Spi F} {o : Options F} {ob : ClObj} {P : List Nat} {lab c : Nat → Nat} {w : World} (hcfg : cfg.Valid) (ha : OptionArrays ob.cl.n o P lab c)
    (hv : ∀ k b, 1 ≤ k → ValidLabels cfg b ob.cl.n k → (∀ i, i < k → o.sizeConstraint ≤ (members b ob.cl.n i).length) → 2 ≤ o.numTypes → o.numTypes * k ≤ cfg.sizeMax)
    (h : OnSuccess cfg spi o ob w fun k b => ValidOptions o ob.cl.n P ∧ 1 ≤ k ∧ ValidLabels cfg b ob.cl.n k ∧ (∀ i, i < k → o.sizeConstraint ≤ (members b ob.cl.n i).length) ∧
      (2 ≤ o.numTypes → ∀ i, i < k → ∀ t, t < o.numTypes → c t ≤ (members b ob.cl.n i).countP fun v => lab v = t)) :
    ∃ e p w', scClustering cfg spi o (some ob) w = some ((e, p), w') ∧ (e = .ok → ∃ cl b, p = some ⟨ob.id, cl⟩ ∧ cl.label = some b ∧
      ((∀ v ∈ P, ¬ Unassigned cfg b.buf v) → ∃ e2 ok w2, checkClustering cfg p o true w' = some ((e2, some ok), w2) ∧
        (e2 = .ok ∧ ok = true ∨ e2 = .noMemory ∧ ¬ w.NoFail))) := by
  obtain ⟨e, p, w', h1, h2⟩ := h
  refine ⟨e, p, w', h1, fun he => ?_⟩
  obtain ⟨hf, cl, b, rfl, hn, hlab, hlive, hini, hvo, h3, h4, h5, h6⟩ := h2 he
  refine ⟨cl, b, rfl, hlab, fun hP => ?_⟩
  rw [← hn] at h4 h5 h6 ha hvo hv
  have hco : CheckOk cfg o ⟨ob.id, cl⟩ P lab c w' := by
    refine ⟨hcfg, ?_, ?_, ha, hv _ _ h3 h4 h5⟩
    · rw [hlab]; exact hlive
    · intro _ lb hlb v hv
      rw [hlab] at hlb
      cases hlb
      rcases h4 v hv with h | ⟨i, -, h⟩ <;> exact ⟨_, h⟩
  obtain ⟨e2, ok, w2, lb, g1, g2, -, ⟨g3, g4⟩ | ⟨g3, g4, g5⟩⟩ := C18_check_exact hco hini (by dsimp only; omega) hvo
  · refine ⟨e2, ok, w2, g1, Or.inl ⟨g3, g4.2 ?_⟩⟩
    dsimp only at g2
    rw [hlab] at g2
    cases g2
    exact ⟨h4, fun _ => hP, h5, h6⟩
  · exact ⟨e2, ok, w2, g1, Or.inr ⟨g3, by rwa [noFail_congr hf] at g5⟩⟩

/-- There cannot be more clusters than points. -/
theorem clusters_le {b : Buf Int} {n k S : Nat} (hS : 1 ≤ S) (h : ∀ i, i < k → S ≤ (members b n i).length) : k ≤ n := by
  have : ∀ i : Fin k, ∃ v : Fin n, b.get v = some ((i : Nat) : Int) := by
    intro i
    have h1 := h i i.2
    obtain ⟨v, hv⟩ := List.exists_mem_of_length_pos (show 0 < (members b n i).length by omega)
    obtain ⟨h2, h3⟩ := mem_members.1 hv
    exact ⟨⟨v, h2⟩, h3⟩
  choose f hf using this
  have hinj : Function.Injective f := by
    intro i j hij
    have := hf i
    rw [hij, hf j] at this
    exact Fin.ext (by simpa using this.symm)
  simpa using Fintype.card_le_of_injective f hinj

/-- C19. The check accepts what a successful call with a digraph method produced, if no primary point is left unassigned. The check itself may lack memory. -/
theorem C19_check_accepts {cfg : Cfg} {spi : Spi F} {A : Criterion F} {dist : Nat → Nat → F} {mayRefuse : Prop} {o : Options F} {ob : ClObj}
    (hs : SpiOk spi ob.cl.n A dist mayRefuse) {P : List Nat} {lab c : Nat → Nat} {w : World} (hc : CallOk cfg o ob P lab c w) {m : SeedMethod} (hm : o.seedMethod = .method m)
    (hroom : o.numTypes * ob.cl.n ≤ cfg.sizeMax) :
    ∃ e p w', scClustering cfg spi o (some ob) w = some ((e, p), w') ∧ (e = .ok → ∃ cl b, p = some ⟨ob.id, cl⟩ ∧ cl.label = some b ∧
      ((∀ v ∈ P, ¬ Unassigned cfg b.buf v) → ∃ e2 ok w2, checkClustering cfg p o true w' = some ((e2, some ok), w2) ∧
        (e2 = .ok ∧ ok = true ∨ e2 = .noMemory ∧ ¬ w.NoFail))) := by
  obtain ⟨e, p, w', h1, h2⟩ := C01_size_constraint hs hc hm
  have hve : e = .ok → ValidOptions o ob.cl.n P := by
    rintro rfl
    exact C32_ok_valid (Multiset.mem_of_le hc.live (by simp)) hc.arrays h1
  by_cases he : e = .ok
  · have hvo := hve he
    refine check_of_success hc.config hc.arrays (fun k b _ _ h _ => ?_) ?_
    · have := clusters_le (by have := hvo.size_two; omega) h
      exact (Nat.mul_le_mul_left _ this).trans hroom
    · refine ⟨e, p, w', h1, fun he => ?_⟩
      obtain ⟨hf, cl, b, hp, hn, hlab, hlive, hini, h3, h4, h5⟩ := h2 he
      refine ⟨hf, cl, b, hp, hn, hlab, hlive, hini, hvo, h3, h4, h5, fun ht => ?_⟩
      obtain ⟨e', p', w'', h1', h2'⟩ := C02_type_constraints hs hc hm ht
      rw [h1] at h1'
      cases h1'
      obtain ⟨-, cl', b', hp', -, hlab', -, -, -, -, h6⟩ := h2' he
      rw [hp] at hp'
      cases hp'
      rw [hlab] at hlab'
      cases hlab'
      exact fun i hi => (h6 i hi).2
  · exact ⟨e, p, w', h1, fun h => absurd h he⟩

/-- C19 for batches. -/
theorem C19_check_accepts_batches {cfg : Cfg} {spi : Spi F} {A : Criterion F} {dist : Nat → Nat → F} {mayRefuse : Prop} {o : Options F} {ob : ClObj}
    (hs : SpiOk spi ob.cl.n A dist mayRefuse) {P : List Nat} {lab c : Nat → Nat} {w : World} (hc : CallOk cfg o ob P lab c w) (hm : o.seedMethod = .batches) (hfit : BatchFits o ob.cl.n) :
    ∃ e p w', scClustering cfg spi o (some ob) w = some ((e, p), w') ∧ (e = .ok → ∃ cl b, p = some ⟨ob.id, cl⟩ ∧ cl.label = some b ∧
      ((∀ v ∈ P, ¬ Unassigned cfg b.buf v) → ∃ e2 ok w2, checkClustering cfg p o true w' = some ((e2, some ok), w2) ∧
        (e2 = .ok ∧ ok = true ∨ e2 = .noMemory ∧ ¬ w.NoFail))) := by
  obtain ⟨e, p, w', h1, h2⟩ := C12_batch_size_constraint hs hc hm hfit
  have hve : e = .ok → ValidOptions o ob.cl.n P := by
    rintro rfl
    exact C32_ok_valid (Multiset.mem_of_le hc.live (by simp)) hc.arrays h1
  by_cases he : e = .ok
  · have hvo := hve he
    have hT := (hvo.batches hm).1
    refine check_of_success hc.config hc.arrays (fun k b _ _ h ht => by omega) ?_
    refine ⟨e, p, w', h1, fun he => ?_⟩
    obtain ⟨hf, cl, b, hp, hn, hlab, hlive, hini, h3, h4, h5⟩ := h2 he
    exact ⟨hf, cl, b, hp, hn, hlab, hlive, hini, hvo, h3, h4, fun i hi => (h5 i hi).1, fun ht => by omega⟩
  · exact ⟨e, p, w', h1, fun h => absurd h he⟩

/-- For the six points on a line the call succeeds, and then the check answers "true". -/
example : ∃ p w' w2, scClustering sampleCfg (builtinSpi (some lineData)) (lineOpts .anyNeighbor .useSeedRadius 0) (some lineObj) (sampleWorld [5]) = some ((.ok, p), w') ∧
    checkClustering sampleCfg p (lineOpts .anyNeighbor .useSeedRadius 0) true w' = some ((.ok, some true), w2) := by
  obtain ⟨cl, b, w', h1, -, h3, h4⟩ := line_run (um := .anyNeighbor) (pr := .useSeedRadius) (r := 0) (Or.inl rfl) ⟨nofun, nofun⟩ nofun
  obtain ⟨e, p, w'', h5, h6⟩ := C19_check_accepts lineSpi_ok (line_call .anyNeighbor .useSeedRadius 0) (m := .lexical) rfl (by decide)
  rw [h1] at h5
  cases h5
  obtain ⟨cl', b', h7, h8, h9⟩ := h6 rfl
  cases h7
  rw [h3] at h8
  cases h8
  obtain ⟨e2, ok, w2, h10, ⟨rfl, rfl⟩ | ⟨-, h⟩⟩ := h9 (by
    intro v hv hu
    have h := (Buf.read_eq_some.1 h4).2 v (List.mem_range.1 hv)
    rw [Unassigned, h] at hu
    have hv' := List.mem_range.1 hv
    clear h h9 h6
    revert hu
    revert v
    decide)
  · exact ⟨_, w', w2, h1, h10⟩
  · exact absurd (fun _ _ => rfl) h

end Scc
