/-
The built-in distance functions return distances and farthest points as documented.
-/
import Verif.Spec.Metric
import Verif.Proofs.DistMetric
import Verif.Proofs.SampleData
import Verif.Model.Hierarchical

namespace Scc

variable {F : Type} [FloatOps F]

theorem DataSet.Metric.laws {ds : DataSet F} (h : ds.Metric) : DistLaws ds.n ds.dist where
  order := h.order
  num p q hp hq := h.root p q q hp hq hq (h.sqnum p q hp hq).1
  pos := h.pos
  self p q hp hq := h.root p p q hp hp hq (h.self p q hp hq)

/-- The built-in back end. -/
def builtinMetric {ds : DataSet F} (h : ds.Metric) : MetricOk (builtinSpi (some ds)) ds.n ds.dist False where
  isMD o set own ids := builtinIsNN ds.n o set own ids ∧ set ≠ []
  maxInit := by
    intro len arr L w ha hlen hpos hnd hr _
    refine (searchInit_spec ds.n len arr L w ha hlen hnd hr).mono ?_
    rintro (_ | o) w' ⟨h1, h2, h3⟩
    · exact ⟨h1, h2, h3⟩
    · obtain ⟨own, h4, h5⟩ := h3
      exact ⟨h1, h2, own, ⟨h4, fun he => by rw [he] at hlen; simp at hlen; omega⟩, h5⟩
  maxDist := by
    intro o set own ids lenQ queries Q outI outD w ho hown hids hq hql hpos hQ hlive hI hD
    obtain ⟨⟨rfl, h1, h2, h3, h4, rfl⟩, hne⟩ := ho
    subst hql
    show WpM (useK (o.id :: arrIds o.search ++ arrIds queries) (maxDistK ds o.len o.search Q.length queries outI outD) >>= fun r => pure (some r)) w _
    rw [wpM_bind, wpM_useK]
    refine ⟨fun i hi => ?_, ?_⟩
    · simp only [List.cons_append, List.mem_cons, List.mem_append] at hi
      rcases hi with rfl | hi | hi
      · exact Multiset.mem_of_le hown (by simp)
      · exact hids i hi
      · exact hlive i hi
    · rw [← h2]
      refine (maxDistK_spec h.order h.complete h1 hq h4 hQ hne h3 (fun q hq x hx => h.sqnum q x (hQ q hq) (h4 x hx)) hI hD).mono ?_
      rintro ⟨bi, bd⟩ ⟨k1, k2, k3, -⟩
      rw [wpM_pure]
      refine ⟨rfl, rfl, rfl, k1, k2, fun i q hiq => ?_⟩
      obtain ⟨x, ⟨hx1, hx2⟩, hx3, hx4⟩ := k3 i q hiq
      have hqn := hQ q (List.mem_of_getElem? hiq)
      exact ⟨x, hx1, hx3, hx4, fun y hy => h.root q y x hqn (h4 y hy) (h4 x hx1) (hx2 y hy).1⟩
  maxClose := fun o set own ids w L ho hl => searchClose_spec ds.n o set own ids w L ho.1 hl
  distRows := by
    intro lenQ queries Q lenC cols C out w hq hql hc' hcl hQ hC hpq hpc hl1 hl2 hlen
    subst hql hcl
    refine (distRows_spec ds h.complete out w hq hc' hQ hC hl1 hl2 hlen).mono ?_
    rintro _ w' ⟨h1, h2, h3, out', rfl, h4, h5, h6⟩
    exact ⟨h1, h2, h3, h4, h5⟩
  distMatrix := by
    intro len points L out w hp hlen hL hpos hlive hout
    subst hlen
    show WpM (useK (arrIds points) (distMatrixK ds L.length points out) >>= fun r => pure (some r)) w _
    rw [wpM_bind, wpM_useK]
    refine ⟨hlive, (distMatrixK_spec h.complete hp hL hout).mono ?_⟩
    rintro out' ⟨k1, k2, -⟩
    rw [wpM_pure]
    exact ⟨rfl, rfl, rfl, k1, k2⟩
  numPoints := rfl

/-! ### A concrete number type and sorting function -/

theorem int_sq_nonneg (a : Int) : 0 ≤ a * a := by
  rcases Int.le_total 0 a with h | h
  · exact Int.mul_nonneg h h
  · exact Int.mul_nonneg_of_nonpos_of_nonpos h h

theorem int_sqd_nonneg (ds : DataSet Int) (p q : Nat) : 0 ≤ ds.sqd p q := by
  unfold DataSet.sqd
  have : ∀ (l : List Nat) (acc : Int), 0 ≤ acc → 0 ≤ l.foldl (fun acc t => FloatOps.add acc
      (FloatOps.mul (FloatOps.sub (ds.coord p t) (ds.coord q t)) (FloatOps.sub (ds.coord p t) (ds.coord q t)))) acc := by
    intro l
    induction l with
    | nil => intro acc h; exact h
    | cons t l ih =>
      intro acc h
      rw [List.foldl_cons]
      exact ih _ (Int.add_nonneg h (int_sq_nonneg _))
  exact this _ 0 le_rfl

theorem int_sqd_self (ds : DataSet Int) (p : Nat) : ds.sqd p p = 0 := by
  unfold DataSet.sqd
  have : ∀ (l : List Nat), l.foldl (fun acc t => FloatOps.add acc
      (FloatOps.mul (FloatOps.sub (ds.coord p t) (ds.coord p t)) (FloatOps.sub (ds.coord p t) (ds.coord p t)))) (0 : Int) = 0 := by
    intro l
    induction l with
    | nil => rfl
    | cons t l ih =>
      rw [List.foldl_cons]
      have h0 : FloatOps.add (0 : Int) (FloatOps.mul (FloatOps.sub (ds.coord p t) (ds.coord p t)) (FloatOps.sub (ds.coord p t) (ds.coord p t))) = 0 := by
        show (0 : Int) + (ds.coord p t - ds.coord p t) * (ds.coord p t - ds.coord p t) = 0
        simp
      rw [h0]; exact ih
  exact this _

/-- Integer data sets. -/
theorem intMetric {ds : DataSet Int} (h : ds.Complete) : ds.Metric where
  complete := h
  order := intLaws
  sqnum p q _ _ := ⟨int_isNum _, by
    have := int_sqd_nonneg ds p q
    show decide ((-1 : Int) < ds.sqd p q) = true
    rw [decide_eq_true_eq]; omega⟩
  self p q _ _ := by
    show decide (ds.sqd p p ≤ ds.sqd p q) = true
    rw [decide_eq_true_eq, int_sqd_self]; exact int_sqd_nonneg ds p q
  root p q r _ _ _ hle := by
    have hle' : ds.sqd p q ≤ ds.sqd p r := by simpa [FloatOps.le] using hle
    show decide (((ds.sqd p q).toNat.sqrt : Int) ≤ ((ds.sqd p r).toNat.sqrt : Int)) = true
    rw [decide_eq_true_eq]
    exact_mod_cast Nat.sqrt_le_sqrt (by omega)
  pos p q _ _ := by
    show decide ((-1 : Int) < ((ds.sqd p q).toNat.sqrt : Int)) = true
    rw [decide_eq_true_eq]; omega

/-- Insertion into a list of edges sorted by distance. -/
def insertEdge (e : Nat × Int) : List (Nat × Int) → List (Nat × Int)
  | [] => [e]
  | x :: l => if e.2 ≤ x.2 then e :: x :: l else x :: insertEdge e l

theorem insertEdge_perm (e : Nat × Int) (l : List (Nat × Int)) : (insertEdge e l).Perm (e :: l) := by
  induction l with
  | nil => exact List.Perm.refl _
  | cons x l ih =>
    unfold insertEdge
    split
    · exact List.Perm.refl _
    · exact (ih.cons x).trans (List.Perm.swap _ _ _)

theorem insertEdge_sorted {e : Nat × Int} {l : List (Nat × Int)} (h : l.Pairwise fun a b => a.2 ≤ b.2) : (insertEdge e l).Pairwise fun a b => a.2 ≤ b.2 := by
  induction l with
  | nil => simp [insertEdge]
  | cons x l ih =>
    rw [List.pairwise_cons] at h
    unfold insertEdge
    split
    · rename_i hle
      refine List.pairwise_cons.2 ⟨fun y hy => ?_, List.pairwise_cons.2 h⟩
      rcases List.mem_cons.1 hy with rfl | hy
      · exact hle
      · exact hle.trans (h.1 y hy)
    · rename_i hle
      refine List.pairwise_cons.2 ⟨fun y hy => ?_, ih h.2⟩
      rcases List.mem_cons.1 ((insertEdge_perm e l).mem_iff.1 hy) with rfl | hy
      · omega
      · exact h.1 y hy

/-- A C library that sorts by insertion and rounds logarithms down. -/
def sampleEnv : HiEnv Int := ⟨fun l => l.foldr insertEdge [], fun c n => c * min 64 (Nat.log2 n)⟩

theorem sampleEnv_sorts (l : List (Nat × Int)) : (l.foldr insertEdge []).Perm l ∧ (l.foldr insertEdge []).Pairwise fun a b => a.2 ≤ b.2 := by
  induction l with
  | nil => exact ⟨List.Perm.refl _, List.Pairwise.nil⟩
  | cons x l ih => exact ⟨(insertEdge_perm x _).trans (ih.1.cons x), insertEdge_sorted ih.2⟩

/-- A clustering object in block 5 for the given number of points. -/
def hiObj (n k : Nat) (l : Option (Blk Int)) : ClObj := ⟨5, clusteringVersion, n, k, l, l.isSome⟩

end Scc
