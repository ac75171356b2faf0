/-
C92: shifting the data has no effect when the shifted coordinates are exact. `Translated` is in Spec/Shift.lean.
-/
import Verif.Spec.Shift
import Verif.Props.Congruent

namespace Scc

theorem Translated.sqd {ds ds' : DataSet Dbl} (h : Translated ds ds') {i j : Nat} (hi : i < ds.n) (hj : j < ds.n) : ds'.sqd i j = ds.sqd i j := by
  obtain ⟨b, hb⟩ := h.coord
  unfold DataSet.sqd
  rw [← h.dims]
  refine List.foldl_ext _ _ _ fun a t ht => ?_
  have ht := List.mem_range.1 ht
  have ht' := h.dims ▸ ht
  rw [h.finite.coord_eq hi ht, h.finite.coord_eq hj ht, h.finite'.coord_eq (h.num ▸ hi) ht', h.finite'.coord_eq (h.num ▸ hj) ht', hb i t hi ht, hb j t hj ht, Dbl.sub_fin, Dbl.sub_fin, add_sub_add_right_eq_sub]

theorem Translated.spi {ds ds' : DataSet Dbl} (h : Translated ds ds') : builtinSpi (some ds') = builtinSpi (some ds) := spi_same h.exact h.exact' h.num fun _ _ hi hj => h.sqd hi hj

/-- C92 for `scc_sc_clustering`, for all methods, options and outcomes. Distances may overflow or underflow. -/
theorem C92_sc_clustering {ds ds' : DataSet Dbl} (h : Translated ds ds') (cfg : Cfg) (o : Options Dbl) (p : Option ClObj) (w : World) :
    scClustering cfg (builtinSpi (some ds')) o p w = scClustering cfg (builtinSpi (some ds)) o p w := by rw [h.spi]

/-- C92 for `scc_hierarchical_clustering`. -/
theorem C92_hierarchical {ds ds' : DataSet Dbl} (h : Translated ds ds') (cfg : Cfg) (hi : HiEnv Dbl) (S : Nat) (batch : Bool) (p : Option ClObj) (w : World) :
    hierarchical cfg hi (builtinSpi (some ds')) S batch p w = hierarchical cfg hi (builtinSpi (some ds)) S batch p w := by rw [h.spi]

/-- C92 for `scc_get_clustering_stats`. -/
theorem C92_stats {ds ds' : DataSet Dbl} (h : Translated ds ds') (cfg : Cfg) (p : Option ClObj) (out : Bool) (w : World) :
    getStats cfg (builtinSpi (some ds')) p out w = getStats cfg (builtinSpi (some ds)) p out w := by rw [h.spi]

/-! ### Six points on a line -/

theorem line_shifted : Translated (intLine [0, 1, 3, 7, 8, 20]) (intLine [-1000, -999, -997, -993, -992, -980]) where
  exact := intLine_exact (by decide)
  exact' := intLine_exact (by decide)
  finite := intLine_finite _
  finite' := intLine_finite _
  num := rfl
  dims := rfl
  coord := by
    refine ⟨fun _ => -1000, fun i t hi ht => ?_⟩
    obtain rfl : t = 0 := by have : t < 1 := ht; omega
    rw [intLine_coord _ hi, intLine_coord _ (show i < 6 from hi)]
    have := (by decide : ∀ i < 6, ([-1000, -999, -997, -993, -992, -980] : List ℤ).getD i 0 = ([0, 1, 3, 7, 8, 20] : List ℤ).getD i 0 + -1000) i hi
    rw [this]
    push_cast
    rfl

example (o : Options Dbl) (w : World) : scClustering sampleCfg (builtinSpi (some (intLine [-1000, -999, -997, -993, -992, -980]))) o (some lineObj) w =
    scClustering sampleCfg (builtinSpi (some (intLine [0, 1, 3, 7, 8, 20]))) o (some lineObj) w := C92_sc_clustering line_shifted sampleCfg o _ w

example (w : World) : hierarchical sampleCfg insertEnv (builtinSpi (some (intLine [-1000, -999, -997, -993, -992, -980]))) 2 false (some lineObj) w =
    hierarchical sampleCfg insertEnv (builtinSpi (some (intLine [0, 1, 3, 7, 8, 20]))) 2 false (some lineObj) w := C92_hierarchical line_shifted sampleCfg insertEnv 2 false _ w

example (w : World) : getStats sampleCfg (builtinSpi (some (intLine [-1000, -999, -997, -993, -992, -980]))) (some (hiObj 6 4 (some ⟨6, statLabels⟩))) true w =
    getStats sampleCfg (builtinSpi (some (intLine [0, 1, 3, 7, 8, 20]))) (some (hiObj 6 4 (some ⟨6, statLabels⟩))) true w := C92_stats line_shifted sampleCfg _ true w

/-! ### Shifts that are rounded -/

/-- Two points at `2 ^ 54`. -/
noncomputable def farPair : DataSet Dbl := ⟨dataSetVersion, 2, 1, some (Buf.ofList [.fin (2 ^ 54), .fin (2 ^ 54)])⟩

/-- The shifted coordinates must be exact. When the points 0 and 1 are shifted by `2 ^ 54` in double arithmetic, they become the same point. -/
theorem C92_fails_rounded : (∀ i < 2, farPair.coord i 0 = FloatOps.add ((intLine [0, 1]).coord i 0) (.fin (2 ^ 54))) ∧ (intLine [0, 1]).dist 0 1 = .fin 1 ∧
    sqDist farPair 0 1 = some (.fin 0) ∧ farPair.dist 0 1 = .fin 0 := by
  refine ⟨fun i hi => ?_, C89_fails_infinite.2.2.2.2.2, ?_⟩
  · interval_cases i
    · show Dbl.fin (2 ^ 54) = Dbl.round (((0 : ℤ) : ℝ) + 2 ^ 54)
      rw [round_long (m := 2 ^ 52) (by norm_num) (by norm_num) (by norm_num)]
      norm_num
    · show Dbl.fin (2 ^ 54) = Dbl.round (((1 : ℤ) : ℝ) + 2 ^ 54)
      rw [round_long (m := 2 ^ 52) (by norm_num) (by norm_num) (by norm_num)]
      norm_num
  · have hs : farPair.sqd 0 1 = .fin 0 := by
      show FloatOps.add (FloatOps.zero : Dbl) (FloatOps.mul (FloatOps.sub (Dbl.fin (2 ^ 54)) (.fin (2 ^ 54))) (FloatOps.sub (Dbl.fin (2 ^ 54)) (.fin (2 ^ 54)))) = .fin 0
      rw [sq_diff_same, show FloatOps.add (FloatOps.zero : Dbl) (.fin 0) = FloatOps.zero from Dbl.stable_zero]
      rfl
    have hc : farPair.Complete := by
      intro i hi
      have hi : i < 2 := hi
      interval_cases i <;> exact ⟨_, rfl⟩
    refine ⟨by rw [sqDist_eq hc (show 0 < 2 by omega) (show 1 < 2 by omega), hs], ?_⟩
    unfold DataSet.dist
    rw [hs]
    show (if (0 : ℝ) < 0 then Dbl.nan else Dbl.round (Real.sqrt 0)) = _
    rw [if_neg (lt_irrefl _), Real.sqrt_zero, Dbl.round_zero]

end Scc
