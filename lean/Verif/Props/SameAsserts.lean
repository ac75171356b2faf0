/-
C89 to C92 in builds with assertions: constant dimensions, congruent integer data, mirrored dimensions and exact shifts have no effect there either. A failed assertion ends the program, so this also says
that the same assertions fail.
-/
import Verif.Model.AssertSearch
import Verif.Model.AssertHi
import Verif.Model.AssertObjects
import Verif.Props.Mirror
import Verif.Props.Shift

namespace Scc

/-- All functions of the back end with assertions do the same. -/
theorem spiDbg_same {F : Type} [FloatOps F] {ds ds' : DataSet F} (h : ds.Exact) (h' : ds'.Exact) (hn : ds.n = ds'.n) (hs : ∀ i j, i < ds.n → j < ds.n → ds'.sqd i j = ds.sqd i j) :
    builtinSpiDbg (some ds') = builtinSpiDbg (some ds) := by
  have e0 : sqDistDbg ds' = sqDistDbg ds := by
    unfold sqDistDbg
    rw [sqDist_same h h' hn hs, hn]
  have ei : ds'.isInitialized = ds.isInitialized := h'.init.trans h.init.symm
  have e1 : (some ds').any DataSet.isInitialized = (some ds).any DataSet.isInitialized := ei
  have e2 : distMatrixKDbg ds' = distMatrixKDbg ds := by unfold distMatrixKDbg; rw [e0, ei]
  have e3 : distRowsKDbg ds' = distRowsKDbg ds := by unfold distRowsKDbg; rw [e0, ei]
  have e4 : maxDistKDbg ds' = maxDistKDbg ds := by unfold maxDistKDbg; rw [e0, ei]
  have e5 : fillRadiusDbg ds' = fillRadiusDbg ds := by unfold fillRadiusDbg; rw [e0]
  have e6 : fillFirstDbg ds' = fillFirstDbg ds := by unfold fillFirstDbg; rw [e0]
  have e7 : fillRestDbg ds' = fillRestDbg ds := by unfold fillRestDbg; rw [e0]
  have e8 : nnQueryDbg ds' = nnQueryDbg ds := by unfold nnQueryDbg; rw [e5, e6, e7]
  have e9 : nnSearchKDbg ds' = nnSearchKDbg ds := by unfold nnSearchKDbg; rw [e8]
  have e10 : nnSearchDbg ds' = nnSearchDbg ds := by unfold nnSearchDbg; rw [e9, ei]
  have e11 : searchInitDbg ds' = searchInitDbg ds := by unfold searchInitDbg; rw [ei]
  unfold builtinSpiDbg
  dsimp only [Option.getD_some]
  rw [e1, e2, e3, e4, e10, e11, hn]

theorem ConstantAdded.spiDbg {ds ds' : DataSet Dbl} (h : ConstantAdded ds ds') : builtinSpiDbg (some ds') = builtinSpiDbg (some ds) :=
  spiDbg_same h.exact h.exact' h.num fun _ _ hi hj => h.sqd hi hj

/-- C89 in builds with assertions: constant dimensions have no effect on the clustering functions and on the statistics, whatever the arguments and the outcome. -/
theorem C89_asserts {ds ds' : DataSet Dbl} (h : ConstantAdded ds ds') (cfg : Cfg) (p : Option ClObj) (w : World) :
    (∀ o, scClusteringDbg cfg (builtinSpiDbg (some ds')) o p w = scClusteringDbg cfg (builtinSpiDbg (some ds)) o p w) ∧
    (∀ hi S batch, hierarchicalDbg cfg hi (builtinSpiDbg (some ds')) S batch p w = hierarchicalDbg cfg hi (builtinSpiDbg (some ds)) S batch p w) ∧
    (∀ out, getStatsDbg cfg (builtinSpiDbg (some ds')) p out w = getStatsDbg cfg (builtinSpiDbg (some ds)) p out w) := by
  rw [h.spiDbg]
  exact ⟨fun _ => rfl, fun _ _ _ => rfl, fun _ => rfl⟩

example (o : Options Dbl) (w : World) : scClusteringDbg sampleCfg (builtinSpiDbg (some (spaceLine [0, 1, 3, 7, 8, 20]))) o (some lineObj) w = scClusteringDbg sampleCfg (builtinSpiDbg (some (intLine [0, 1, 3, 7, 8, 20]))) o (some lineObj) w :=
  (C89_asserts spaceLine_constantAdded sampleCfg _ w).1 o

theorem Congruent.spiDbg {ds ds' : DataSet Dbl} (h : Congruent ds ds') (hz : ds.SmallIntegers) (hz' : ds'.SmallIntegers) : builtinSpiDbg (some ds') = builtinSpiDbg (some ds) :=
  spiDbg_same h.exact h.exact' h.num fun _ _ hi hj => by rw [sqd_integers hz hi hj, sqd_integers hz' (h.num ▸ hi) (h.num ▸ hj), h.dist _ _ hi hj]

/-- C90 in builds with assertions: congruent data sets with integer coordinates have no effect on the clustering functions and on the statistics, whatever the arguments and the outcome. -/
theorem C90_asserts {ds ds' : DataSet Dbl} (h : Congruent ds ds') (hz : ds.SmallIntegers) (hz' : ds'.SmallIntegers) (cfg : Cfg) (p : Option ClObj) (w : World) :
    (∀ o, scClusteringDbg cfg (builtinSpiDbg (some ds')) o p w = scClusteringDbg cfg (builtinSpiDbg (some ds)) o p w) ∧
    (∀ hi S batch, hierarchicalDbg cfg hi (builtinSpiDbg (some ds')) S batch p w = hierarchicalDbg cfg hi (builtinSpiDbg (some ds)) S batch p w) ∧
    (∀ out, getStatsDbg cfg (builtinSpiDbg (some ds')) p out w = getStatsDbg cfg (builtinSpiDbg (some ds)) p out w) := by
  rw [h.spiDbg hz hz']
  exact ⟨fun _ => rfl, fun _ _ _ => rfl, fun _ => rfl⟩

example (o : Options Dbl) (w : World) : scClusteringDbg sampleCfg (builtinSpiDbg (some (slope [0, 1, 3, 7, 8, 20]))) o (some lineObj) w = scClusteringDbg sampleCfg (builtinSpiDbg (some (intLine [0, 5, 15, 35, 40, 100]))) o (some lineObj) w :=
  (C90_asserts slope_congruent (intLine_integers (by decide)) slope_integers sampleCfg _ w).1 o

theorem Mirrored.spiDbg {ds ds' : DataSet Dbl} (h : Mirrored ds ds') : builtinSpiDbg (some ds') = builtinSpiDbg (some ds) :=
  spiDbg_same h.exact h.exact' h.num fun _ _ hi hj => h.sqd hi hj

/-- C91 in builds with assertions: mirrored dimensions have no effect on the clustering functions and on the statistics, whatever the arguments and the outcome. -/
theorem C91_asserts {ds ds' : DataSet Dbl} (h : Mirrored ds ds') (cfg : Cfg) (p : Option ClObj) (w : World) :
    (∀ o, scClusteringDbg cfg (builtinSpiDbg (some ds')) o p w = scClusteringDbg cfg (builtinSpiDbg (some ds)) o p w) ∧
    (∀ hi S batch, hierarchicalDbg cfg hi (builtinSpiDbg (some ds')) S batch p w = hierarchicalDbg cfg hi (builtinSpiDbg (some ds)) S batch p w) ∧
    (∀ out, getStatsDbg cfg (builtinSpiDbg (some ds')) p out w = getStatsDbg cfg (builtinSpiDbg (some ds)) p out w) := by
  rw [h.spiDbg]
  exact ⟨fun _ => rfl, fun _ _ _ => rfl, fun _ => rfl⟩

example (o : Options Dbl) (w : World) : scClusteringDbg sampleCfg (builtinSpiDbg (some oddMirror)) o (some lineObj) w = scClusteringDbg sampleCfg (builtinSpiDbg (some oddPlane)) o (some lineObj) w :=
  (C91_asserts odd_mirrored sampleCfg _ w).1 o

theorem Translated.spiDbg {ds ds' : DataSet Dbl} (h : Translated ds ds') : builtinSpiDbg (some ds') = builtinSpiDbg (some ds) :=
  spiDbg_same h.exact h.exact' h.num fun _ _ hi hj => h.sqd hi hj

/-- C92 in builds with assertions: exact shifts have no effect on the clustering functions and on the statistics, whatever the arguments and the outcome. -/
theorem C92_asserts {ds ds' : DataSet Dbl} (h : Translated ds ds') (cfg : Cfg) (p : Option ClObj) (w : World) :
    (∀ o, scClusteringDbg cfg (builtinSpiDbg (some ds')) o p w = scClusteringDbg cfg (builtinSpiDbg (some ds)) o p w) ∧
    (∀ hi S batch, hierarchicalDbg cfg hi (builtinSpiDbg (some ds')) S batch p w = hierarchicalDbg cfg hi (builtinSpiDbg (some ds)) S batch p w) ∧
    (∀ out, getStatsDbg cfg (builtinSpiDbg (some ds')) p out w = getStatsDbg cfg (builtinSpiDbg (some ds)) p out w) := by
  rw [h.spiDbg]
  exact ⟨fun _ => rfl, fun _ _ _ => rfl, fun _ => rfl⟩

example (o : Options Dbl) (w : World) : scClusteringDbg sampleCfg (builtinSpiDbg (some (intLine [-1000, -999, -997, -993, -992, -980]))) o (some lineObj) w = scClusteringDbg sampleCfg (builtinSpiDbg (some (intLine [0, 1, 3, 7, 8, 20]))) o (some lineObj) w :=
  (C92_asserts line_shifted sampleCfg _ w).1 o

end Scc
