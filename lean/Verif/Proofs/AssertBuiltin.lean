/-
The built-in distance functions with and without assertions have a common part that still works as documented: the outcomes that both have. Calls of the library with the common part return,
so calls with either of the two return the same.
-/
import Verif.Proofs.AssertSpi
import Verif.Proofs.AssertSearch
import Verif.Proofs.HiBuiltin
import Verif.Props.Stats

namespace Scc

open Classical in
/-- The outcome on which `x` and `y` agree. -/
noncomputable def bothM {α : Type} (x y : M α) : M α := fun w => if x w = y w then y w else none

theorem bothM_of_eq {α : Type} {x y : M α} (h : x = y) : bothM x y = y := by
  subst h
  funext w
  simp [bothM]

theorem bothM_left {α : Type} (x y : M α) : MLe (bothM x y) x := by
  refine ⟨fun w r hr => ?_⟩
  unfold bothM at hr
  split at hr
  · rename_i h; rw [h]; exact hr
  · exact absurd hr (by simp)

theorem bothM_right {α : Type} (x y : M α) : MLe (bothM x y) y := by
  refine ⟨fun w r hr => ?_⟩
  unfold bothM at hr
  split at hr
  · exact hr
  · exact absurd hr (by simp)

variable {F : Type} [FloatOps F]

open Classical in
/-- The common part of the built-in distance functions with and without assertions. A search with a radius that is not positive or without an array for answered queries is the one without
assertions. -/
noncomputable def commonSpi (ds : DataSet F) : Spi F where
  NN := SearchObj
  MD := SearchObj
  valid := (builtinSpi (some ds)).valid
  numPoints := ds.n
  distMatrix := fun len points out => bothM ((builtinSpiDbg (some ds)).distMatrix len points out) ((builtinSpi (some ds)).distMatrix len points out)
  distRows := fun lenQ queries lenC cols out =>
    bothM ((builtinSpiDbg (some ds)).distRows lenQ queries lenC cols out) ((builtinSpi (some ds)).distRows lenQ queries lenC cols out)
  maxInit := fun len arr => bothM ((builtinSpiDbg (some ds)).maxInit len arr) ((builtinSpi (some ds)).maxInit len arr)
  maxDist := fun o lenQ queries outI outD =>
    bothM ((builtinSpiDbg (some ds)).maxDist o lenQ queries outI outD) ((builtinSpi (some ds)).maxDist o lenQ queries outI outD)
  maxClose := searchClose
  nnInit := fun len arr => bothM ((builtinSpiDbg (some ds)).nnInit len arr) ((builtinSpi (some ds)).nnInit len arr)
  nnSearch := fun o lenQ queries k rs radius oq nn =>
    if rs = true → FloatOps.lt FloatOps.zero radius = true ∧ oq ≠ .null then
      bothM ((builtinSpiDbg (some ds)).nnSearch o lenQ queries k rs radius oq nn) ((builtinSpi (some ds)).nnSearch o lenQ queries k rs radius oq nn)
    else (builtinSpi (some ds)).nnSearch o lenQ queries k rs radius oq nn
  nnClose := searchClose

/-- The functions without assertions, as a replacement. -/
noncomputable def plainRepl (ds : DataSet F) : Repl (commonSpi ds) where
  distMatrix := (builtinSpi (some ds)).distMatrix
  distRows := (builtinSpi (some ds)).distRows
  maxInit := (builtinSpi (some ds)).maxInit
  maxDist := (builtinSpi (some ds)).maxDist
  nnInit := (builtinSpi (some ds)).nnInit
  nnSearch := (builtinSpi (some ds)).nnSearch

/-- The functions with assertions, as a replacement. -/
noncomputable def dbgRepl (ds : DataSet F) : Repl (commonSpi ds) where
  distMatrix := (builtinSpiDbg (some ds)).distMatrix
  distRows := (builtinSpiDbg (some ds)).distRows
  maxInit := (builtinSpiDbg (some ds)).maxInit
  maxDist := (builtinSpiDbg (some ds)).maxDist
  nnInit := (builtinSpiDbg (some ds)).nnInit
  nnSearch := (builtinSpiDbg (some ds)).nnSearch

theorem plainRepl_spi (ds : DataSet F) : (plainRepl ds).spi = builtinSpi (some ds) := rfl

theorem dbgRepl_spi (ds : DataSet F) : (dbgRepl ds).spi = builtinSpiDbg (some ds) := rfl

open Classical in
theorem plainRepl_above (ds : DataSet F) : (plainRepl ds).Above where
  distMatrix _ _ _ := bothM_right _ _
  distRows _ _ _ _ _ := bothM_right _ _
  maxInit _ _ := bothM_right _ _
  maxDist _ _ _ _ _ := bothM_right _ _
  nnInit _ _ := bothM_right _ _
  nnSearch o lenQ queries k rs radius oq nn h := by
    show MLe (if _ then _ else _) _
    rw [if_pos h]
    exact bothM_right _ _

open Classical in
theorem dbgRepl_above (ds : DataSet F) : (dbgRepl ds).Above where
  distMatrix _ _ _ := bothM_left _ _
  distRows _ _ _ _ _ := bothM_left _ _
  maxInit _ _ := bothM_left _ _
  maxDist _ _ _ _ _ := bothM_left _ _
  nnInit _ _ := bothM_left _ _
  nnSearch o lenQ queries k rs radius oq nn h := by
    show MLe (if _ then _ else _) _
    rw [if_pos h]
    exact bothM_left _ _

section
variable {ds : DataSet F} (hi : ds.isInitialized = true)
include hi

theorem commonRows_eq {queries cols : Option Arr} {Q C : List Nat} (hq : ArrHolds queries Q) (hqr : ∀ q ∈ Q, q < ds.n) (h1 : 0 < Q.length) (hc : ArrHolds cols C)
    (hcr : ∀ c ∈ C, c < ds.n) (h2 : 0 < C.length) (out : Buf F) :
    (commonSpi ds).distRows Q.length queries C.length cols out = (builtinSpi (some ds)).distRows Q.length queries C.length cols out := by
  refine bothM_of_eq ?_
  show (useK _ (distRowsKDbg ds Q.length queries C.length cols out) >>= _) = (useK _ (distRowsK ds Q.length queries C.length cols out) >>= _)
  rw [distRowsKDbg_eq hi hq hqr hc hcr h1 h2]

theorem commonInit_eq {len : Nat} (h : 0 < len) (arr : Option Arr) : (commonSpi ds).nnInit len arr = (builtinSpi (some ds)).nnInit len arr :=
  bothM_of_eq (searchInitDbg_eq hi h arr)

open Classical in
/-- The common part works as documented. -/
noncomputable def commonSpi_with (hc : ds.Complete) {A : Criterion F}
    (hA : ∀ set k radius q, set.Nodup → (∀ x ∈ set, x < ds.n) → q < ds.n → 0 < k → k ≤ set.length → A set k radius q (nnAnswer (ds.sqd q) set k radius)) :
    SpiOk (commonSpi ds) ds.n A ds.dist False where
  isNN := (builtinSpi_with ds hc hA).isNN
  nnInit := by
    intro len arr L w ha hlen h0 hnd hr hl
    rw [commonInit_eq hi h0]
    refine ((builtinSpi_with ds hc hA).nnInit len arr L w ha hlen h0 hnd hr hl).mono ?_
    rintro (_ | o) w' h
    · exact h
    · exact h
  nnSearch := by
    intro o set own ids lenQ queries Q k rs radius oq nn w ho hown hcall
    have key := (builtinSpi_with ds hc hA).nnSearch o set own ids lenQ queries Q k rs radius oq nn w ho hown hcall
    have he : (commonSpi ds).nnSearch o lenQ queries k rs radius oq nn = (builtinSpi (some ds)).nnSearch o lenQ queries k rs radius oq nn := by
      show (if _ then _ else _) = _
      split
      · rename_i hg
        obtain ⟨-, g1, g2, g3, g4, -⟩ := ho
        refine bothM_of_eq ?_
        have hl := hcall.len
        subst hl
        exact nnSearchDbg_eq hi g1 g2 g4 hcall.holds hcall.range hcall.pos hcall.kpos hcall.kle (fun e => (hg e).1) (fun e => (hg e).2) hcall.notNull nn
      · rfl
    rw [he]
    exact key
  nnClose := (builtinSpi_with ds hc hA).nnClose
  distRows := by
    intro lenQ queries Q lenC cols C out w hq hql hc' hcl hQ hC hpq hpc hl1 hl2 hlen
    have key := (builtinSpi_with ds hc hA).distRows lenQ queries Q lenC cols C out w hq hql hc' hcl hQ hC hpq hpc hl1 hl2 hlen
    subst hql hcl
    rw [commonRows_eq hi hq hQ hpq hc' hC hpc]
    exact key
  numPoints := rfl

theorem commonMatrix (hc : ds.Complete) : MatrixOk (commonSpi ds) ds.n ds.dist False := by
  intro len points L out w hp hlen hL hpos hlive hout
  have key := builtinMatrix hc len points L out w hp hlen hL hpos hlive hout
  have he : (commonSpi ds).distMatrix len points out = (builtinSpi (some ds)).distMatrix len points out := by
    refine bothM_of_eq ?_
    subst hlen
    show (useK _ (distMatrixKDbg ds L.length points out) >>= _) = (useK _ (distMatrixK ds L.length points out) >>= _)
    rw [distMatrixKDbg_eq hi hp hL hpos]
  rw [he]
  exact key

/-- The same for the functions that return distances. -/
noncomputable def commonSpi_metric (hm : ds.Metric) : MetricOk (commonSpi ds) ds.n ds.dist False where
  isMD := (builtinMetric hm).isMD
  maxInit := by
    intro len arr L w ha hlen h0 hnd hr hl
    have he : (commonSpi ds).maxInit len arr = (builtinSpi (some ds)).maxInit len arr := bothM_of_eq (searchInitDbg_eq hi h0 arr)
    rw [he]
    refine ((builtinMetric hm).maxInit len arr L w ha hlen h0 hnd hr hl).mono ?_
    rintro (_ | o) w' h
    · exact h
    · exact h
  maxDist := by
    intro o set own ids lenQ queries Q outI outD w ho hown hids hq hql hpos hQ hlive hI hD
    have key := (builtinMetric hm).maxDist o set own ids lenQ queries Q outI outD w ho hown hids hq hql hpos hQ hlive hI hD
    have he : (commonSpi ds).maxDist o lenQ queries outI outD = (builtinSpi (some ds)).maxDist o lenQ queries outI outD := by
      obtain ⟨⟨-, g1, g2, g3, g4, -⟩, hne⟩ := ho
      refine bothM_of_eq ?_
      subst hql
      show (useK _ (maxDistKDbg ds o.len o.search Q.length queries outI outD) >>= _) = (useK _ (maxDistK ds o.len o.search Q.length queries outI outD) >>= _)
      rw [← g2, maxDistKDbg_eq hi g1 g4 hq hQ (List.length_pos_iff.2 hne) hpos]
    rw [he]
    exact key
  maxClose := (builtinMetric hm).maxClose
  distRows := by
    intro lenQ queries Q lenC cols C out w hq hql hc' hcl hQ hC hpq hpc hl1 hl2 hlen
    have key := (builtinMetric hm).distRows lenQ queries Q lenC cols C out w hq hql hc' hcl hQ hC hpq hpc hl1 hl2 hlen
    subst hql hcl
    rw [commonRows_eq hi hq hQ hpq hc' hC hpc]
    exact key
  distMatrix := commonMatrix hi hm.complete
  numPoints := rfl

end

end Scc
