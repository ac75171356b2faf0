/-
Property C68: only comparisons of distances matter.

Two data sets that compare alike give the same clusters, in every process and with any options, unless a radius is estimated. The numbers may be of different types. In exact arithmetic, moving and
scaling the data (and the radii that are supplied) changes nothing; that is so even if a radius is estimated.
-/
import Verif.Proofs.CompareEst
import Verif.Proofs.RunOk
import Verif.Proofs.HiBuiltin
import Mathlib.Tactic.IntervalCases
import Mathlib.Tactic.NormNum

namespace Scc

variable {F G : Type} [FloatOps F] [FloatOps G]

/-- C68 for `scc_sc_clustering`, for all methods and options without estimated radii. From every point, the distances to the other points compare alike in the two data sets. The calls have the same
outcome: the code, the clustering object and the process afterwards, and if one has undefined behaviour, then both have. -/
theorem C68_sc_clustering {ds : DataSet F} {ds' : DataSet G} (h : SameNear ds ds') {o : Options F} {o' : Options G} (ho : SameOptions ds ds' o o') (hest : NoEstimate o) (cfg : Cfg) (p : Option ClObj) (w : World) :
    scClustering cfg (builtinSpi (some ds)) o p w = scClustering cfg (builtinSpi (some ds')) o' p w := by
  rw [scClustering_same h ho (fun hn => hn.elim (fun h => absurd h.2 (hest.primary h.1)) fun h => absurd h.2 (hest.secondary h.1))]

/-- C68 for `scc_hierarchical_clustering`. Distances between any points compare alike in the two data sets, and sorting depends only on comparisons. (If twice the size constraint is a multiple of 2^32,
the code breaks empty clusters.) -/
theorem C68_hierarchical {ds : DataSet F} {ds' : DataSet G} (h : SameFar ds ds') {hi : HiEnv F} {hi' : HiEnv G} (he : SameEnv hi hi') {S : Nat} (hS : 0 < u32 (2 * S)) (cfg : Cfg) (batch : Bool)
    (p : Option ClObj) (w : World) : hierarchical cfg hi (builtinSpi (some ds)) S batch p w = hierarchical cfg hi' (builtinSpi (some ds')) S batch p w := by
  rw [hierarchical_same h he cfg S hS batch p]

/-- C68 in exact arithmetic, for `scc_sc_clustering`: moving the data and scaling it together with the radii does not change the outcome. A radius may be estimated. -/
theorem C68_similar {c : ℝ} (hc : 0 < c) {ds ds' : DataSet ℝ} (h : Similar c ds ds') (o : Options ℝ) (cfg : Cfg) (p : Option ClObj) (w : World) :
    scClustering cfg (builtinSpi (some ds)) o p w = scClustering cfg (builtinSpi (some ds')) (o.scaled c) p w := by
  rw [scClustering_same (similar_far hc h).toSameNear (similar_options hc h o) fun _ => sameEstimates_of (similar_far hc h).toSameNear (similar_means hc h) _]

/-- C68 in exact arithmetic, for `scc_hierarchical_clustering`. -/
theorem C68_similar_hierarchical {c : ℝ} (hc : 0 < c) {ds ds' : DataSet ℝ} (h : Similar c ds ds') {hi : HiEnv ℝ} (he : SameEnv hi hi) {S : Nat} (hS : 0 < u32 (2 * S)) (cfg : Cfg) (batch : Bool)
    (p : Option ClObj) (w : World) : hierarchical cfg hi (builtinSpi (some ds)) S batch p w = hierarchical cfg hi (builtinSpi (some ds')) S batch p w :=
  C68_hierarchical (similar_far hc h) he hS cfg batch p w

/-- C68 in exact arithmetic, in terms of the coordinates: each coordinate is multiplied by the same number `c` and shifted by a number that depends only on the dimension. -/
theorem C68_moved {c : ℝ} (hc : c ≠ 0) {ds ds' : DataSet ℝ} (he : ds.Exact) (he' : ds'.Exact) (hn : ds.n = ds'.n) (hd : ds.dims = ds'.dims) (b : Nat → ℝ)
    (h : ∀ i t, i < ds.n → t < ds.dims → ds'.coord i t = c * ds.coord i t + b t) (o : Options ℝ) (cfg : Cfg) (p : Option ClObj) (w : World) :
    scClustering cfg (builtinSpi (some ds)) o p w = scClustering cfg (builtinSpi (some ds')) (o.scaled |c|) p w :=
  C68_similar (abs_pos.2 hc) (similar_of_coord he he' hn hd b h) o cfg p w

/-! ### Sorting -/

/-- Insertion of an edge into a sorted list. -/
def insertByDist (x : Nat × F) : List (Nat × F) → List (Nat × F)
  | [] => [x]
  | y :: l => if FloatOps.le x.2 y.2 then x :: y :: l else y :: insertByDist x l

/-- A C library that sorts by insertion. -/
def insertEnv : HiEnv F := ⟨fun l => l.foldr insertByDist [], fun c n => c * min 64 (Nat.log2 n)⟩

theorem insertByDist_alike {D : F → G → Prop} (hD : ∀ x y x' y', D x x' → D y y' → SameCmp x y x' y') {x : Nat × F} {x' : Nat × G} (hx : EdgeAlike D x x') {l : List (Nat × F)} {l' : List (Nat × G)}
    (h : List.Forall₂ (EdgeAlike D) l l') : List.Forall₂ (EdgeAlike D) (insertByDist x l) (insertByDist x' l') := by
  induction h with
  | nil => exact .cons hx .nil
  | cons hy hl ih =>
    unfold insertByDist
    rw [(hD _ _ _ _ hx.2 hy.2).2]
    split
    · exact .cons hx (.cons hy hl)
    · exact .cons hy ih

/-- Sorting by insertion depends only on comparisons. -/
theorem insertEnv_same : SameEnv (insertEnv : HiEnv F) (insertEnv : HiEnv G) where
  sort D l l' hD h := by
    show List.Forall₂ (EdgeAlike D) (l.foldr insertByDist []) (l'.foldr insertByDist [])
    induction h with
    | nil => exact .nil
    | cons hx _ ih => exact insertByDist_alike hD hx ih
  cap := rfl

/-! ### Examples -/

/-- The error code, the number of clusters and the labels of a call. -/
def compareResult (ds : DataSet Int) (o : Options Int) : Option (ErrorCode × Nat × Option (List Int)) :=
  (scClustering sampleCfg (builtinSpi (some ds)) o (some (hiObj ds.n 0 none)) (sampleWorld [5])).bind fun r => r.1.2.map fun ob => (r.1.1, ob.cl.numClusters, ob.cl.label.bind fun b => b.buf.read ds.n)

/-- Six points that compare like those of `lineData` (0, 1, 3, 7, 8 and 20), although the distances are not proportional. -/
def warpedData : DataSet Int := mkData 1 [100, 103, 108, 117, 120, 160]

theorem mkData_exact {dims : Nat} {rows : List Int} (hd : dims ≠ 0) (hr : rows.length / dims ≠ 0) (h : rows.length / dims * dims = rows.length) : (mkData dims rows).Exact where
  init := by
    unfold DataSet.isInitialized mkData
    rw [if_neg (by simp), if_neg hr, if_neg hd, if_neg (by simp)]
  complete := mkData_complete h.le
  len := h.symm

/-- A test of `SameFar` for small data sets. -/
def farTest (ds ds' : DataSet Int) : Bool :=
  (List.range ds.n).all fun p => (List.range ds.n).all fun q => FloatOps.lt FloatOps.negOne (ds.sqd p q) && FloatOps.lt FloatOps.negOne (ds'.sqd p q) &&
    (FloatOps.lt FloatOps.negOne (ds.dist p q) == FloatOps.lt FloatOps.negOne (ds'.dist p q)) &&
    (List.range ds.n).all fun r => (FloatOps.lt (ds.sqd p q) (ds.sqd p r) == FloatOps.lt (ds'.sqd p q) (ds'.sqd p r)) && (FloatOps.le (ds.sqd p q) (ds.sqd p r) == FloatOps.le (ds'.sqd p q) (ds'.sqd p r)) &&
      (List.range ds.n).all fun s => (FloatOps.lt (ds.dist p q) (ds.dist r s) == FloatOps.lt (ds'.dist p q) (ds'.dist r s)) && (FloatOps.le (ds.dist p q) (ds.dist r s) == FloatOps.le (ds'.dist p q) (ds'.dist r s))

theorem farTest_spec {ds ds' : DataSet Int} (he : ds.Exact) (he' : ds'.Exact) (hn : ds.n = ds'.n) (h : farTest ds ds' = true) : SameFar ds ds' := by
  simp only [farTest, List.all_eq_true, List.mem_range, Bool.and_eq_true, beq_iff_eq] at h
  exact ⟨⟨he, he', hn, fun q x y hq hx hy => ((h q hq x hx).2 y hy).1⟩, fun p q hp hq => (h p hp q hq).1.1, fun p q r s hp hq hr hs => ((h p hp q hq).2 r hr).2 s hs, fun p q hp hq => (h p hp q hq).1.2⟩

theorem lineData_exact : lineData.Exact := mkData_exact (by decide) (by decide) (by decide)

theorem warped_far : SameFar lineData warpedData := farTest_spec lineData_exact (mkData_exact (by decide) (by decide) (by decide)) rfl (by decide +kernel)

/-- A radius of 3 for the first data set corresponds to one of 8 for the second. -/
theorem warped_radius : SameRadius lineData warpedData 3 8 where
  sign := by decide
  within := by
    have : ∀ q, q < 6 → ∀ x, x < 6 → FloatOps.lt (FloatOps.mul 3 3) (lineData.sqd q x) = FloatOps.lt (FloatOps.mul 8 8) (warpedData.sqd q x) := by decide +kernel
    exact fun q x hq hx => this q hq x hx

/-- The hypotheses of C68 for options with a supplied radius for the assignment, and what the two calls do. -/
example : (∀ um w, scClustering sampleCfg (builtinSpi (some lineData)) (lineOpts um .useSupplied 3) (some lineObj) w =
      scClustering sampleCfg (builtinSpi (some warpedData)) (lineOpts um .useSupplied 8) (some lineObj) w) ∧
    compareResult lineData (lineOpts .closestSeed .useSupplied 3) = some (.ok, 2, some [0, 0, 0, 1, 1, -2 ^ 31]) ∧
    compareResult warpedData (lineOpts .closestSeed .useSupplied 8) = some (.ok, 2, some [0, 0, 0, 1, 1, -2 ^ 31]) := by
  refine ⟨fun um w => C68_sc_clustering warped_far.toSameNear ?_ ?_ _ _ _, ?_, ?_⟩
  · exact ⟨rfl, rfl, rfl, rfl, rfl, rfl, rfl, rfl, rfl, rfl, rfl, rfl, rfl, rfl, rfl, nofun, fun _ => warped_radius, nofun⟩
  · exact ⟨fun _ => nofun, fun h => absurd rfl h⟩
  · decide +kernel
  · decide +kernel

/-- Hierarchical clustering. -/
example : (∀ w, hierarchical sampleCfg insertEnv (builtinSpi (some lineData)) 2 false (some lineObj) w = hierarchical sampleCfg insertEnv (builtinSpi (some warpedData)) 2 false (some lineObj) w) ∧
    ((hierarchical sampleCfg insertEnv (builtinSpi (some lineData)) 2 false (some lineObj) (sampleWorld [5])).bind fun r => r.1.2.map fun ob => (r.1.1, ob.cl.numClusters, ob.cl.label.bind fun b => b.buf.read 6)) =
      some (.ok, 3, some [2, 2, 1, 1, 0, 0]) := by
  refine ⟨fun w => C68_hierarchical warped_far insertEnv_same (by decide) _ _ _ _, ?_⟩
  decide +kernel

/-- Two data sets of five points that compare alike in all distances. -/
def estData (x : Int) : DataSet Int := mkData 1 [0, x, x + 1000, x + 1001, x + 1005]

theorem est_far : SameFar (estData 6) (estData 12) := farTest_spec (mkData_exact (by decide) (by decide) (by decide)) (mkData_exact (by decide) (by decide) (by decide)) rfl (by decide +kernel)

/-- An estimated radius is a mean of distances, so comparisons alone do not decide which points are within it: in the first data set the last point stays unassigned, in the second it is assigned. -/
theorem C68_fails_estimated :
    SameFar (estData 6) (estData 12) ∧
    compareResult (estData 6) (lineOpts .closestSeed .useEstimated 0) = some (.ok, 2, some [0, 0, 1, 1, -2 ^ 31]) ∧
    compareResult (estData 12) (lineOpts .closestSeed .useEstimated 0) = some (.ok, 2, some [0, 0, 1, 1, 1]) := by
  refine ⟨est_far, ?_, ?_⟩ <;> decide +kernel

/-- The six points with real coordinates. -/
noncomputable def realLine (c b : ℝ) : DataSet ℝ := ⟨dataSetVersion, 6, 1, some (Buf.ofList [c * 0 + b, c * 1 + b, c * 3 + b, c * 7 + b, c * 8 + b, c * 20 + b])⟩

theorem realLine_exact (c b : ℝ) : (realLine c b).Exact where
  init := by
    unfold DataSet.isInitialized realLine
    rw [if_neg (by simp), if_neg (by simp), if_neg (by simp), if_neg (by simp)]
  complete i hi := by
    have hi : i < 6 := hi
    interval_cases i <;> exact ⟨_, rfl⟩
  len := rfl

theorem realLine_coord (c b : ℝ) (i t : Nat) (hi : i < 6) (ht : t < 1) : (realLine c b).coord i t = c * (realLine 1 0).coord i t + b := by
  obtain rfl : t = 0 := by omega
  interval_cases i <;> simp [DataSet.coord, realLine, DataSet.buf, Buf.ofList, Buf.get]

theorem realLine_similar : Similar |(-3 : ℝ)| (realLine 1 0) (realLine (-3) 7) :=
  similar_of_coord (realLine_exact _ _) (realLine_exact _ _) rfl rfl (fun _ => 7) fun i t hi ht => realLine_coord (-3) 7 i t hi ht

/-- The hypotheses of C68 in exact arithmetic: the data is reversed, tripled and moved. The options are arbitrary; in particular the radius may be estimated. -/
example (o : Options ℝ) (w : World) : scClustering sampleCfg (builtinSpi (some (realLine 1 0))) o (some lineObj) w = scClustering sampleCfg (builtinSpi (some (realLine (-3) 7))) (o.scaled |(-3 : ℝ)|) (some lineObj) w := by
  rw [C68_moved (by norm_num) (realLine_exact 1 0) (realLine_exact (-3) 7) rfl rfl (fun _ => 7) (fun i t hi ht => realLine_coord (-3) 7 i t hi ht)]

example (S : Nat) (hS : S = 2 ∨ S = 3) (batch : Bool) (w : World) : hierarchical sampleCfg insertEnv (builtinSpi (some (realLine 1 0))) S batch (some lineObj) w =
    hierarchical sampleCfg insertEnv (builtinSpi (some (realLine (-3) 7))) S batch (some lineObj) w := by
  have hS : 0 < u32 (2 * S) := by rcases hS with rfl | rfl <;> decide
  rw [C68_similar_hierarchical (abs_pos.2 (by norm_num)) realLine_similar insertEnv_same hS]

end Scc
