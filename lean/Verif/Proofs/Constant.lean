/-
Helper lemmas for dimensions in which all points agree.
-/
import Verif.Spec.Constant
import Verif.Proofs.Compare
import Verif.Proofs.DoubleLaws
import Verif.Proofs.DoubleExact

namespace Scc

theorem nearest53_idem (x : ℝ) : nearest53 (nearest53 x) = nearest53 x := by
  have := nearest53_closest (nearest53 x) (nearest53 x) (nearest53_bits x)
  rw [sub_self, abs_zero] at this
  exact sub_eq_zero.1 (abs_eq_zero.1 (le_antisymm this (abs_nonneg _)))

/-- Adding zero changes nothing: the number is the result of an operation. -/
def Dbl.Stable (x : Dbl) : Prop := FloatOps.add x (.fin 0) = x

theorem Dbl.stable_round (x : ℝ) : (Dbl.round x).Stable := by
  unfold Dbl.round
  split
  · rename_i h
    show Dbl.round (nearest53 x + 0) = _
    rw [add_zero]
    unfold Dbl.round
    rw [nearest53_idem, if_pos h]
  · rfl

theorem Dbl.stable_add (x y : Dbl) : (FloatOps.add x y).Stable := by
  cases x with
  | nan => rfl
  | inf s =>
    cases y with
    | nan => rfl
    | inf t =>
      show (if s = t then Dbl.inf s else .nan).Stable
      split <;> rfl
    | fin y => rfl
  | fin x =>
    cases y with
    | nan => rfl
    | inf t => rfl
    | fin y => exact Dbl.stable_round _

theorem Dbl.stable_zero : (FloatOps.zero : Dbl).Stable := by
  show Dbl.round (0 + 0) = .fin 0
  rw [add_zero, Dbl.round_zero]

/-- The square of a difference of equal numbers. -/
theorem sq_diff_same (c : ℝ) : FloatOps.mul (FloatOps.sub (Dbl.fin c) (.fin c)) (FloatOps.sub (Dbl.fin c) (.fin c)) = .fin 0 := by
  have h : FloatOps.sub (Dbl.fin c) (.fin c) = .fin 0 := by
    show Dbl.round (c + -c) = _
    rw [add_neg_cancel, Dbl.round_zero]
  rw [h]
  show Dbl.round (0 * 0) = _
  rw [mul_zero, Dbl.round_zero]

/-- Steps that change nothing can be left out. -/
theorem foldl_sublist {α β : Type} {I : α → Prop} {f : α → β → α} (hf : ∀ a b, I (f a b)) {K L : List β} (h : K.Sublist L) (hL : L.Nodup) (hs : ∀ b ∈ L, b ∉ K → ∀ a, I a → f a b = a) {a : α} (ha : I a) :
    L.foldl f a = K.foldl f a := by
  induction h generalizing a with
  | slnil => rfl
  | cons b h ih =>
    rename_i K L
    have hb := List.nodup_cons.1 hL
    rw [List.foldl_cons, hs b List.mem_cons_self (fun hk => hb.1 (h.subset hk)) a ha]
    exact ih hb.2 (fun c hc => hs c (List.mem_cons_of_mem _ hc)) ha
  | cons_cons b h ih =>
    rename_i K L
    have hb := List.nodup_cons.1 hL
    rw [List.foldl_cons, List.foldl_cons]
    refine ih hb.2 (fun c hc hk => hs c (List.mem_cons_of_mem _ hc) ?_) (hf a b)
    intro hm
    rcases List.mem_cons.1 hm with rfl | hm
    · exact hb.1 hc
    · exact hk hm

/-- Two data sets with the same squared distances: the function that computes them is the same. -/
theorem sqDist_same {F : Type} [FloatOps F] {ds ds' : DataSet F} (h : ds.Exact) (h' : ds'.Exact) (hn : ds.n = ds'.n) (hs : ∀ i j, i < ds.n → j < ds.n → ds'.sqd i j = ds.sqd i j) : sqDist ds' = sqDist ds := by
  funext i j
  by_cases hij : i < ds.n ∧ j < ds.n
  · rw [sqDist_eq h.complete hij.1 hij.2, sqDist_eq h'.complete (hn ▸ hij.1) (hn ▸ hij.2), hs i j hij.1 hij.2]
  · have hij : ds.n ≤ i ∨ ds.n ≤ j := by omega
    rw [sqDist_out h hij, sqDist_out h' (hn ▸ hij)]

/-- All functions of the back end do the same. -/
theorem spi_same {F : Type} [FloatOps F] {ds ds' : DataSet F} (h : ds.Exact) (h' : ds'.Exact) (hn : ds.n = ds'.n) (hs : ∀ i j, i < ds.n → j < ds.n → ds'.sqd i j = ds.sqd i j) :
    builtinSpi (some ds') = builtinSpi (some ds) := by
  have e0 := sqDist_same h h' hn hs
  have e1 : (some ds').any DataSet.isInitialized = (some ds).any DataSet.isInitialized := h'.init.trans h.init.symm
  have e2 : distMatrixK ds' = distMatrixK ds := by unfold distMatrixK; rw [e0]
  have e3 : distRowsK ds' = distRowsK ds := by unfold distRowsK; rw [e0]
  have e4 : maxDistK ds' = maxDistK ds := by unfold maxDistK; rw [e0]
  have e5 : fillRadius ds' = fillRadius ds := by unfold fillRadius; rw [e0]
  have e6 : fillFirst ds' = fillFirst ds := by unfold fillFirst; rw [e0]
  have e7 : fillRest ds' = fillRest ds := by unfold fillRest; rw [e0]
  have e8 : nnQuery ds' = nnQuery ds := by unfold nnQuery; rw [e5, e6, e7]
  have e9 : nnSearchK ds' = nnSearchK ds := by unfold nnSearchK; rw [e8]
  have e10 : nnSearch ds' = nnSearch ds := by unfold nnSearch; rw [e9]
  unfold builtinSpi
  dsimp only [Option.getD_some]
  rw [e1, e2, e3, e4, e10, hn]

section
variable {ds ds' : DataSet Dbl} (h : ConstantAdded ds ds')
include h

theorem ConstantAdded.sqd {i j : Nat} (hi : i < ds.n) (hj : j < ds.n) : ds'.sqd i j = ds.sqd i j := by
  obtain ⟨K, h1, h2, h3, h4⟩ := h.dims
  unfold DataSet.sqd
  rw [foldl_sublist (I := Dbl.Stable) (fun a b => Dbl.stable_add _ _) h1 List.nodup_range ?_ Dbl.stable_zero]
  · have hK : K = (List.range ds.dims).map fun t => K.getD t 0 := by
      rw [← h2]
      refine List.ext_getElem (by rw [List.length_map, List.length_range]) fun t ht _ => ?_
      rw [List.getElem_map, List.getElem_range, List.getD_eq_getElem?_getD, List.getElem?_eq_getElem ht, Option.getD_some]
    rw [hK, List.foldl_map]
    refine List.foldl_ext _ _ _ fun a t ht => ?_
    rw [h3 i t hi (List.mem_range.1 ht), h3 j t hj (List.mem_range.1 ht)]
  · intro u hu hk a ha
    obtain ⟨c, hc⟩ := h4 u (List.mem_range.1 hu) hk
    rw [hc i hi, hc j hj, sq_diff_same]
    exact ha

theorem ConstantAdded.spi : builtinSpi (some ds') = builtinSpi (some ds) := spi_same h.exact h.exact' h.num fun _ _ hi hj => h.sqd hi hj

end

end Scc
