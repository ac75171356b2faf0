/-
C91: mirroring dimensions has no effect, whatever the data. `Mirrored` is in Spec/Mirror.lean.
-/
import Verif.Spec.Mirror
import Verif.Proofs.Constant
import Verif.Props.Constant

namespace Scc

theorem Dbl.sub_neg (x y : Dbl) : FloatOps.sub x.neg y.neg = (FloatOps.sub x y).neg := by
  cases x with
  | nan => rfl
  | inf s =>
    cases y with
    | nan => rfl
    | inf t => cases s <;> cases t <;> rfl
    | fin y => rfl
  | fin x =>
    cases y with
    | nan => rfl
    | inf t => rfl
    | fin y =>
      show Dbl.round (-x + - -y) = (Dbl.round (x + -y)).neg
      rw [← Dbl.round_neg, neg_add]

theorem Dbl.mul_neg (x : Dbl) : FloatOps.mul x.neg x.neg = FloatOps.mul x x := by
  cases x with
  | nan => rfl
  | inf s => cases s <;> rfl
  | fin x =>
    show Dbl.round (-x * -x) = Dbl.round (x * x)
    rw [neg_mul_neg]

theorem Mirrored.sqd {ds ds' : DataSet Dbl} (h : Mirrored ds ds') {i j : Nat} (hi : i < ds.n) (hj : j < ds.n) : ds'.sqd i j = ds.sqd i j := by
  obtain ⟨flip, hf⟩ := h.coord
  unfold DataSet.sqd
  rw [← h.dims]
  refine List.foldl_ext _ _ _ fun a t ht => ?_
  rw [hf i t hi (List.mem_range.1 ht), hf j t hj (List.mem_range.1 ht)]
  cases flip t with
  | false => rfl
  | true =>
    rw [if_pos rfl, if_pos rfl, Dbl.sub_neg, Dbl.mul_neg]

theorem Mirrored.spi {ds ds' : DataSet Dbl} (h : Mirrored ds ds') : builtinSpi (some ds') = builtinSpi (some ds) := spi_same h.exact h.exact' h.num fun _ _ hi hj => h.sqd hi hj

/-- C91 for `scc_sc_clustering`, for all methods, options and outcomes. -/
theorem C91_sc_clustering {ds ds' : DataSet Dbl} (h : Mirrored ds ds') (cfg : Cfg) (o : Options Dbl) (p : Option ClObj) (w : World) :
    scClustering cfg (builtinSpi (some ds')) o p w = scClustering cfg (builtinSpi (some ds)) o p w := by rw [h.spi]

/-- C91 for `scc_hierarchical_clustering`. -/
theorem C91_hierarchical {ds ds' : DataSet Dbl} (h : Mirrored ds ds') (cfg : Cfg) (hi : HiEnv Dbl) (S : Nat) (batch : Bool) (p : Option ClObj) (w : World) :
    hierarchical cfg hi (builtinSpi (some ds')) S batch p w = hierarchical cfg hi (builtinSpi (some ds)) S batch p w := by rw [h.spi]

/-- C91 for `scc_get_clustering_stats`. -/
theorem C91_stats {ds ds' : DataSet Dbl} (h : Mirrored ds ds') (cfg : Cfg) (p : Option ClObj) (out : Bool) (w : World) :
    getStats cfg (builtinSpi (some ds')) p out w = getStats cfg (builtinSpi (some ds)) p out w := by rw [h.spi]

/-- C91 for computed distances: the function of the library that computes squared distances returns the same, and so the distances are the same. -/
theorem C91_distance {ds ds' : DataSet Dbl} (h : Mirrored ds ds') {i j : Nat} (hi : i < ds.n) (hj : j < ds.n) : sqDist ds' i j = sqDist ds i j ∧ ds'.dist i j = ds.dist i j :=
  ⟨congrFun₂ (sqDist_same h.exact h.exact' h.num fun _ _ hi hj => h.sqd hi hj) i j, congrArg FloatOps.sqrt (h.sqd hi hj)⟩

theorem Dbl.sub_swap (x y : Dbl) : FloatOps.sub y x = (FloatOps.sub x y).neg := by
  cases x with
  | nan => cases y <;> rfl
  | inf s =>
    cases y with
    | nan => rfl
    | inf t => cases s <;> cases t <;> rfl
    | fin y => rfl
  | fin x =>
    cases y with
    | nan => rfl
    | inf t => cases t <;> rfl
    | fin y =>
      show Dbl.round (y + -x) = (Dbl.round (x + -y)).neg
      rw [← Dbl.round_neg, neg_add, neg_neg, add_comm]

theorem sqd_swap (ds : DataSet Dbl) (i j : Nat) : ds.sqd j i = ds.sqd i j := by
  unfold DataSet.sqd
  refine List.foldl_ext _ _ _ fun a t _ => ?_
  rw [Dbl.sub_swap, Dbl.mul_neg]

/-- Computed distances are symmetric: what the function of the library that computes squared distances returns for `j` and `i` is what it returns for `i` and `j`, also when it overflows or is not a number, and so for the distances. -/
theorem C91_symmetric {ds : DataSet Dbl} (h : ds.Complete) {i j : Nat} (hi : i < ds.n) (hj : j < ds.n) : sqDist ds j i = sqDist ds i j ∧ ds.dist j i = ds.dist i j :=
  ⟨by rw [sqDist_eq h hi hj, sqDist_eq h hj hi, sqd_swap], congrArg FloatOps.sqrt (sqd_swap ds i j)⟩

/-! ### Three points, one of them not finite -/

/-- The last coordinate of the third point is infinite. -/
noncomputable def oddPlane : DataSet Dbl := ⟨dataSetVersion, 3, 2, some (Buf.ofList [.fin 1, .fin 2, .fin (1 / 3), .fin (-7), .nan, .inf false])⟩

/-- The second dimension is mirrored. -/
noncomputable def oddMirror : DataSet Dbl := ⟨dataSetVersion, 3, 2, some (Buf.ofList [.fin 1, .fin (-2), .fin (1 / 3), .fin (- -7), .nan, .inf true])⟩

theorem odd_mirrored : Mirrored oddPlane oddMirror where
  exact := by
    refine ⟨rfl, fun i hi => ?_, rfl⟩
    have hi : i < 6 := hi
    interval_cases i <;> exact ⟨_, rfl⟩
  exact' := by
    refine ⟨rfl, fun i hi => ?_, rfl⟩
    have hi : i < 6 := hi
    interval_cases i <;> exact ⟨_, rfl⟩
  num := rfl
  dims := rfl
  coord := by
    refine ⟨fun t => t == 1, fun i t hi ht => ?_⟩
    have hi : i < 3 := hi
    have ht : t < 2 := ht
    interval_cases i <;> interval_cases t <;> rfl

example (cfg : Cfg) (o : Options Dbl) (p : Option ClObj) (w : World) : scClustering cfg (builtinSpi (some oddMirror)) o p w = scClustering cfg (builtinSpi (some oddPlane)) o p w :=
  C91_sc_clustering odd_mirrored cfg o p w

example (cfg : Cfg) (hi : HiEnv Dbl) (p : Option ClObj) (w : World) : hierarchical cfg hi (builtinSpi (some oddMirror)) 2 false p w = hierarchical cfg hi (builtinSpi (some oddPlane)) 2 false p w :=
  C91_hierarchical odd_mirrored cfg hi 2 false p w

example (cfg : Cfg) (p : Option ClObj) (w : World) : getStats cfg (builtinSpi (some oddMirror)) p true w = getStats cfg (builtinSpi (some oddPlane)) p true w := C91_stats odd_mirrored cfg p true w

example : sqDist oddMirror 0 1 = sqDist oddPlane 0 1 ∧ sqDist oddMirror 0 2 = sqDist oddPlane 0 2 := ⟨(C91_distance odd_mirrored (by decide) (by decide)).1, (C91_distance odd_mirrored (by decide) (by decide)).1⟩

example : sqDist oddPlane 2 0 = sqDist oddPlane 0 2 ∧ oddPlane.dist 2 0 = oddPlane.dist 0 2 := C91_symmetric odd_mirrored.exact.complete (by decide) (by decide)

end Scc
