/-
The built-in search returns nearest points in the sense of the specification of clusterings.
-/
import Verif.Proofs.DistMetric
import Verif.Spec.Clustering

namespace Scc

variable {F : Type} [FloatOps F]

/-- `x` is no farther from `q` than `y`, as computed. -/
def DataSet.NoFarther (ds : DataSet F) (q x y : Nat) : Prop := FloatOps.le (ds.sqd q x) (ds.sqd q y) = true

/-- `x` is not beyond the radius `r` of `q`, as computed. -/
def DataSet.Within (ds : DataSet F) (q x : Nat) (r : F) : Prop := FloatOps.lt (FloatOps.mul r r) (ds.sqd q x) = false

theorem collect_nan (laws : FloatLaws F) {r : F} (hr : ¬ IsNum r) (k : Nat) (xs : List (F × Nat)) : ∀ acc, collect k (some r) acc xs = collect k none acc xs := by
  induction xs with
  | nil => intro acc; rfl
  | cons x xs ih =>
    intro acc
    rw [collect, collect]
    simp only [Option.any_some, Option.any_none, laws.nan_lt r x.1 hr]
    simp only [Bool.false_eq_true, ↓reduceIte]
    rw [ih]

theorem nnAnswer_nan (laws : FloatLaws F) {r : F} (hr : ¬ IsNum (FloatOps.mul r r)) (d : Nat → F) (L : List Nat) (k : Nat) : nnAnswer d L k (some r) = nnAnswer d L k none := by
  unfold nnAnswer
  rw [Option.map_some, Option.map_none, collect_nan laws hr]

theorem nnAnswer_criterion (laws : FloatLaws F) {ds : DataSet F} (hnum : ∀ i j, i < ds.n → j < ds.n → IsNum (ds.sqd i j)) (set : List Nat) (k : Nat) (R : Option F) (q : Nat)
    (hset : set.Nodup) (hr : ∀ x ∈ set, x < ds.n) (hq : q < ds.n) (hk : 0 < k) (hks : k ≤ set.length) :
    Nearest ds.NoFarther ds.Within set k R q (nnAnswer (ds.sqd q) set k R) := by
  have hd : ∀ j ∈ set, IsNum (ds.sqd q j) := fun j hj => hnum q j hq (hr j hj)
  cases ha : nnAnswer (ds.sqd q) set k R with
  | some l =>
    have key : ∀ R', (∀ r, R' = some r → IsNum (FloatOps.mul r r)) → nnAnswer (ds.sqd q) set k R' = some l →
        l.Pairwise (ds.NoFarther q) ∧ (∀ x ∈ l, ∀ y ∈ set, y ∉ l → ds.NoFarther q x y) ∧ ∀ r, R' = some r → ∀ x ∈ l, ds.Within q x r := by
      intro R' hR' hl
      obtain ⟨h1, h2, h3⟩ := nnAnswer_nearest laws hk hset hd hR' hl
      refine ⟨h1.imp fun h => h.1, fun x hx y hy hyl => (h2 y hy hyl x hx).1, fun r hrr x hx => ?_⟩
      have hxs : x ∈ set := ((nnAnswer_wellFormed (radius := R') hset hks q).2 l hl).2.2 hx
      have := h3 r hrr x hx
      unfold DataSet.Within
      by_contra hc
      rw [Bool.not_eq_false, laws.lt_iff _ _ (hR' r hrr) (hd x hxs), this] at hc
      cases hc
    by_cases hR : ∀ r, R = some r → IsNum (FloatOps.mul r r)
    · obtain ⟨h1, h2, h3⟩ := key R hR ha
      exact ⟨h3, h1, h2⟩
    · push Not at hR
      obtain ⟨r, rfl, hnan⟩ := hR
      rw [nnAnswer_nan laws hnan] at ha
      obtain ⟨h1, h2, -⟩ := key none (by simp) ha
      refine ⟨fun r' hr' x hx => ?_, h1, h2⟩
      simp only [Option.some.injEq] at hr'
      subst hr'
      exact laws.nan_lt _ _ hnan
  | none =>
    have h1 : ¬ k ≤ set.countP fun j => !R.any fun r => FloatOps.lt (FloatOps.mul r r) (ds.sqd q j) := fun h => nnAnswer_isSome.2 h ha
    cases R with
    | none =>
      exfalso
      apply h1
      simpa using hks
    | some r =>
      refine ⟨r, rfl, fun l hl1 hl2 hl3 => ?_⟩
      have : l.length ≤ (set.filter fun j => !(some r).any fun r => FloatOps.lt (FloatOps.mul r r) (ds.sqd q j)).length := by
        refine (List.subperm_of_subset hl1 fun x hx => ?_).length_le
        have := hl3 x hx
        unfold DataSet.Within at this
        exact List.mem_filter.2 ⟨hl2 hx, by simp [this]⟩
      rw [← List.countP_eq_length_filter] at this
      omega

/-- The built-in search functions find nearest points, if no distance is a NaN. -/
def builtinSpi_nearest (laws : FloatLaws F) (ds : DataSet F) (hc : ds.Complete) (hnum : ∀ i j, i < ds.n → j < ds.n → IsNum (ds.sqd i j)) :
    SpiOk (builtinSpi (some ds)) ds.n (Nearest ds.NoFarther ds.Within) ds.dist False :=
  builtinSpi_with ds hc fun set k R q h1 h2 h3 h4 h5 => nnAnswer_criterion laws hnum set k R q h1 h2 h3 h4 h5

end Scc
