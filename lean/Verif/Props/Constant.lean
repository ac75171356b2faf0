/-
C89: a dimension in which all points agree has no effect, also with rounding errors. `ConstantAdded` is in Spec/Constant.lean.
-/
import Verif.Proofs.Constant
import Verif.Props.Rescale

namespace Scc

/-- C89 for `scc_sc_clustering`, for all methods, options and outcomes. There is no condition on the data besides the finite coordinates in the dimensions that are added. -/
theorem C89_sc_clustering {ds ds' : DataSet Dbl} (h : ConstantAdded ds ds') (cfg : Cfg) (o : Options Dbl) (p : Option ClObj) (w : World) :
    scClustering cfg (builtinSpi (some ds')) o p w = scClustering cfg (builtinSpi (some ds)) o p w := by rw [h.spi]

/-- C89 for `scc_hierarchical_clustering`, whatever the stack capacity and the sorting function. -/
theorem C89_hierarchical {ds ds' : DataSet Dbl} (h : ConstantAdded ds ds') (cfg : Cfg) (hi : HiEnv Dbl) (S : Nat) (batch : Bool) (p : Option ClObj) (w : World) :
    hierarchical cfg hi (builtinSpi (some ds')) S batch p w = hierarchical cfg hi (builtinSpi (some ds)) S batch p w := by rw [h.spi]

/-- C89 for `scc_get_clustering_stats`. -/
theorem C89_stats {ds ds' : DataSet Dbl} (h : ConstantAdded ds ds') (cfg : Cfg) (p : Option ClObj) (out : Bool) (w : World) :
    getStats cfg (builtinSpi (some ds')) p out w = getStats cfg (builtinSpi (some ds)) p out w := by rw [h.spi]

/-- C89 for computed distances: the function of the library that computes squared distances returns the same, and so the distances are the same. -/
theorem C89_distance {ds ds' : DataSet Dbl} (h : ConstantAdded ds ds') {i j : Nat} (hi : i < ds.n) (hj : j < ds.n) : sqDist ds' i j = sqDist ds i j ∧ ds'.dist i j = ds.dist i j :=
  ⟨congrFun₂ (sqDist_same h.exact h.exact' h.num fun _ _ hi hj => h.sqd hi hj) i j, congrArg FloatOps.sqrt (h.sqd hi hj)⟩

/-! ### Six points on a line, in a plane and in space -/

/-- The first coordinate of all points is 5, the third -2. -/
noncomputable def spaceLine (l : List ℤ) : DataSet Dbl := ⟨dataSetVersion, l.length, 3, some (Buf.ofList (l.flatMap fun z : ℤ => [Dbl.fin 5, .fin z, .fin (-2)]))⟩

theorem spaceLine_constantAdded : ConstantAdded (intLine [0, 1, 3, 7, 8, 20]) (spaceLine [0, 1, 3, 7, 8, 20]) where
  exact := intLine_exact (by decide)
  exact' := by
    refine ⟨rfl, fun i hi => ?_, rfl⟩
    have hi : i < 18 := hi
    interval_cases i <;> exact ⟨_, rfl⟩
  num := rfl
  dims := by
    refine ⟨[1], ?_, rfl, fun i t hi ht => ?_, fun u hu hk => ?_⟩
    · show [1].Sublist (List.range 3)
      decide
    · obtain rfl : t = 0 := by have : t < 1 := ht; omega
      have hi : i < 6 := hi
      interval_cases i <;> rfl
    · have hu : u < 3 := hu
      interval_cases u
      · refine ⟨5, fun i hi => ?_⟩
        have hi : i < 6 := hi
        interval_cases i <;> rfl
      · exact absurd (List.mem_singleton.2 rfl) hk
      · refine ⟨-2, fun i hi => ?_⟩
        have hi : i < 6 := hi
        interval_cases i <;> rfl

example (o : Options Dbl) (w : World) : scClustering sampleCfg (builtinSpi (some (spaceLine [0, 1, 3, 7, 8, 20]))) o (some lineObj) w =
    scClustering sampleCfg (builtinSpi (some (intLine [0, 1, 3, 7, 8, 20]))) o (some lineObj) w := C89_sc_clustering spaceLine_constantAdded sampleCfg o _ w

example (w : World) : hierarchical sampleCfg insertEnv (builtinSpi (some (spaceLine [0, 1, 3, 7, 8, 20]))) 2 false (some lineObj) w =
    hierarchical sampleCfg insertEnv (builtinSpi (some (intLine [0, 1, 3, 7, 8, 20]))) 2 false (some lineObj) w := C89_hierarchical spaceLine_constantAdded sampleCfg insertEnv 2 false _ w

example (w : World) : getStats sampleCfg (builtinSpi (some (spaceLine [0, 1, 3, 7, 8, 20]))) (some (hiObj 6 4 (some ⟨6, statLabels⟩))) true w =
    getStats sampleCfg (builtinSpi (some (intLine [0, 1, 3, 7, 8, 20]))) (some (hiObj 6 4 (some ⟨6, statLabels⟩))) true w := C89_stats spaceLine_constantAdded sampleCfg _ true w

example : sqDist (spaceLine [0, 1, 3, 7, 8, 20]) 2 5 = sqDist (intLine [0, 1, 3, 7, 8, 20]) 2 5 ∧ (spaceLine [0, 1, 3, 7, 8, 20]).dist 2 5 = (intLine [0, 1, 3, 7, 8, 20]).dist 2 5 := C89_distance spaceLine_constantAdded (by decide) (by decide)

/-! ### Infinite coordinates -/

/-- Two points with the same infinite coordinate in the second dimension. -/
noncomputable def skyPair : DataSet Dbl := ⟨dataSetVersion, 2, 2, some (Buf.ofList [.fin 0, .inf false, .fin 1, .inf false])⟩

/-- The constant must be finite. Two points have distance one, and they agree in a further dimension, but in an infinity: then their computed distance is not a number. -/
theorem C89_fails_infinite : skyPair.Exact ∧ (∀ i < 2, skyPair.coord i 1 = .inf false) ∧ (∀ i < 2, skyPair.coord i 0 = (intLine [0, 1]).coord i 0) ∧ sqDist skyPair 0 1 = some .nan ∧
    skyPair.dist 0 1 = .nan ∧ (intLine [0, 1]).dist 0 1 = .fin 1 := by
  have hex : skyPair.Exact := by
    refine ⟨rfl, fun i hi => ?_, rfl⟩
    have hi : i < 4 := hi
    interval_cases i <;> exact ⟨_, rfl⟩
  have hs : skyPair.sqd 0 1 = .nan := by
    show FloatOps.add (FloatOps.add (FloatOps.zero : Dbl) _) (FloatOps.mul (FloatOps.sub (Dbl.inf false) (.inf false)) (FloatOps.sub (Dbl.inf false) (.inf false))) = .nan
    have : FloatOps.sub (Dbl.inf false) (.inf false) = .nan := by
      show (if false = true then Dbl.inf false else .nan) = .nan
      rw [if_neg (by decide)]
    rw [this]
    have e : FloatOps.mul Dbl.nan .nan = .nan := rfl
    rw [e, show ∀ x : Dbl, FloatOps.add x .nan = .nan from fun x => by cases x <;> rfl]
  refine ⟨hex, fun i hi => ?_, fun i hi => ?_, by rw [sqDist_eq hex.complete (show 0 < 2 by omega) (show 1 < 2 by omega), hs], congrArg FloatOps.sqrt hs, ?_⟩
  · interval_cases i <;> rfl
  · interval_cases i
    · show Dbl.fin 0 = .fin ((0 : ℤ) : ℝ)
      rw [Int.cast_zero]
    · show Dbl.fin 1 = .fin ((1 : ℤ) : ℝ)
      rw [Int.cast_one]
  · have hs : (intLine [0, 1]).SmallIntegers := by
      refine ⟨intLine_finite _, fun i t hi ht => ?_, fun i j hi hj => ?_⟩
      · obtain rfl : t = 0 := by have : t < 1 := ht; omega
        exact ⟨_, intLine_coord _ hi⟩
      · rw [intLine_eudist _ hi hj]
        have := (by decide : ∀ i, i < 2 → ∀ j, j < 2 → |([0, 1] : List ℤ).getD i 0 - ([0, 1] : List ℤ).getD j 0| ^ 2 ≤ 2 ^ 53) i hi j hj
        exact_mod_cast this
    rw [dist_integers hs (by decide) (by decide), intLine_eudist _ (by decide) (by decide)]
    have : |([0, 1] : List ℤ).getD 0 0 - ([0, 1] : List ℤ).getD 1 0| = 1 := by decide
    rw [this, nearest53_int (by norm_num), Int.cast_one]

end Scc
