/-
`scc_sc_clustering`: checks of the arguments, and the outcomes of a call.
-/
import Verif.Proofs.Run
import Verif.Spec.Clustering

set_option linter.unusedSimpArgs false
set_option linter.unusedVariables false

namespace Scc

variable {F : Type} [FloatOps F]

/-- The call was rejected: nothing but the error record has changed. -/
structure RejectPost (cfg : Cfg) (spi : Spi F) (o : Options F) (ob : ClObj) (P : List Nat) (w : World) (r : ErrorCode × Option ClObj) (w' : World) : Prop where
  fails : w'.fails = w.fails
  live : w'.live = w.live
  err : w'.err.code = r.1
  ne_ok : r.1 ≠ .ok
  same : r.2 = some ob
  cause : Rejects cfg spi.valid spi.numPoints o ob.cl P r.1

/-- What follows the checks in `scc_sc_clustering`. -/
def scAccepted (cfg : Cfg) (spi : Spi F) (o : Options F) (ob : ClObj) : M (ErrorCode × Option ClObj) :=
  match o.seedMethod with
  | .batches => do
    let (ec, cl) ← clusterBatches cfg spi ob.cl o.sizeConstraint o.primaryMethod (decide (o.seedRadius = .useSupplied)) o.seedSupplied
      o.lenPrimary o.primary o.batchSize
    touch [ob.id]
    pure (ec, some ⟨ob.id, cl⟩)
  | .method m => do
    let (ec, cl) ← clusterByNng cfg spi ob.cl o m
    touch [ob.id]
    pure (ec, some ⟨ob.id, cl⟩)
  | .unknown => useK [] none

theorem scClustering_checks {cfg : Cfg} {spi : Spi F} {o : Options F} {ob : ClObj} {P : List Nat} {lab c : Nat → Nat} {w : World} (hl : ob.id ∈ w.live) (ha : OptionArrays ob.cl.n o P lab c)
    {Q : ErrorCode × Option ClObj → World → Prop} (h1 : ∀ r w', RejectPost cfg spi o ob P w r w' → Q r w')
    (h2 : Accepts cfg spi.valid spi.numPoints o ob.cl P → WpM (scAccepted cfg spi o ob) w Q) : WpM (scClustering cfg spi o (some ob)) w Q := by
  unfold scClustering
  rw [wpM_bind]
  unfold isInitialized
  rw [wpM_bind]
  unfold touch
  rw [wpM_useK]
  refine ⟨by simpa using hl, ?_⟩
  rw [wp_some, wpM_pure]
  cases hinit : ob.cl.isInitialized cfg with
  | false =>
    dsimp only
    rw [wpM_bind]
    refine wpM_mkErr fun w1 l1 l2 l3 => ?_
    rw [wpM_pure]
    exact h1 _ _ ⟨l1, l2, by rw [l3], by simp, rfl, Or.inl ⟨rfl, Or.inl hinit⟩⟩
  | true =>
    dsimp only
    cases hval : spi.valid with
    | false =>
      simp only [Bool.not_false, ↓reduceIte]
      rw [wpM_bind]
      refine wpM_mkErr fun w1 l1 l2 l3 => ?_
      rw [wpM_pure]
      exact h1 _ _ ⟨l1, l2, by rw [l3], by simp, rfl, Or.inl ⟨rfl, Or.inr (Or.inl hval)⟩⟩
    | true =>
      simp only [Bool.not_true, Bool.false_eq_true, ↓reduceIte]
      by_cases hnp : spi.numPoints ≠ ob.cl.n
      · rw [if_pos hnp, wpM_bind]
        refine wpM_mkErr fun w1 l1 l2 l3 => ?_
        rw [wpM_pure]
        exact h1 _ _ ⟨l1, l2, by rw [l3], by simp, rfl, Or.inl ⟨rfl, Or.inr (Or.inr hnp)⟩⟩
      · rw [if_neg hnp, wpM_bind]
        refine (checkClusterOptions_spec ha w).mono ?_
        rintro e w1 ⟨f1, f2, ⟨rfl, rfl, hv⟩ | ⟨he, herr, hv, hc⟩⟩
        · rw [if_neg (by simp)]
          by_cases hk : ob.cl.numClusters ≠ 0
          · rw [if_pos hk, wpM_bind]
            refine wpM_mkErr fun w2 l1 l2 l3 => ?_
            rw [wpM_pure]
            exact h1 _ _ ⟨l1, l2, by rw [l3], by simp, rfl, Or.inr (Or.inr ⟨rfl, hv, hk⟩)⟩
          · rw [if_neg hk]
            have := h2 ⟨hinit, hval, by simpa using hnp, hv, by simpa using hk⟩
            unfold scAccepted touch at this
            exact this
        · rw [if_pos he, wpM_pure]
          exact h1 _ _ ⟨f1, f2, herr, he, rfl, Or.inr (Or.inl ⟨hv, hc⟩)⟩

theorem isInitialized_iff {cfg : Cfg} {cl : Clustering} : cl.isInitialized cfg = true ↔
    cl.version = clusteringVersion ∧ cl.n ≠ 0 ∧ cl.n ≤ cfg.pointMax ∧ cl.numClusters ≤ cfg.clabelMax ∧ (0 < cl.numClusters → cl.label ≠ none) := by
  unfold Clustering.isInitialized
  by_cases h1 : cl.version = clusteringVersion
  · by_cases h2 : cl.n = 0
    · simp [h2]
    · by_cases h3 : cfg.pointMax < cl.n
      · simp [h1, h2, h3]
      · by_cases h4 : cfg.clabelMax < cl.numClusters
        · simp [h1, h2, h3, h4]
        · by_cases h5 : 0 < cl.numClusters
          · cases h6 : cl.label <;> simp [h1, h2, h3, h4, h5, h6] <;> omega
          · simp [h1, h2, h3, h4, h5]; omega
  · simp [h1]

/-- The outcomes of a call with a method that builds a digraph. -/
theorem scClustering_spec {cfg : Cfg} {spi : Spi F} {A : Criterion F} {dist : Nat → Nat → F} {mayRefuse : Prop} {o : Options F} {ob : ClObj}
    (hs : SpiOk spi ob.cl.n A dist mayRefuse) {P : List Nat} {lab c : Nat → Nat} {w : World} (hc : CallOk cfg o ob P lab c w) {m : SeedMethod} (hm : o.seedMethod = .method m) :
    WpM (scClustering cfg spi o (some ob)) w fun r w' => RejectPost cfg spi o ob P w r w' ∨
      Accepts cfg spi.valid spi.numPoints o ob.cl P ∧ w'.fails = w.fails ∧ ∃ M cl', w.live = ptrOwn ob.cl.label + M ∧ r.2 = some ⟨ob.id, cl'⟩ ∧
        RunOutcome cfg A dist w ob.cl.n o m P lab c mayRefuse M ob.cl (r.1, cl') w' := by
  obtain ⟨M, hM⟩ := Multiset.le_iff_exists_add.1 hc.live
  have hlive : w.live = ptrOwn ob.cl.label + ({ob.id} + M) := by rw [hM]; abel
  refine scClustering_checks (by rw [hM]; simp) hc.arrays (fun r w' h => Or.inl h) fun hacc => ?_
  unfold scAccepted
  rw [hm]
  dsimp only
  rw [wpM_bind]
  have hinit := isInitialized_iff.1 hacc.initialized
  refine (clusterByNng_spec hc.config hs hacc.options hc.arrays (hc.limits hacc.options) hinit.2.2.1 m rfl hc.room hlive hc.unchecked).mono ?_
  rintro ⟨e, cl'⟩ w1 ⟨f1, h1⟩
  dsimp only
  rw [wpM_bind]
  unfold touch
  rw [wpM_useK]
  have hid : ob.id ∈ w1.live := by
    cases h1 with
    | done cl' _ rows order L2 L3 L id l data lab' live => rw [live]; simp
    | early e cl' _ leak cause unt err live leaked => rw [live]; simp
    | late e cl' _ L id l cause err search labels lt pos cap lab' live => rw [live]; simp
  refine ⟨by simpa using hid, ?_⟩
  rw [wp_some, wpM_pure]
  exact Or.inr ⟨hacc, f1, _, cl', hlive, rfl, h1⟩

end Scc
