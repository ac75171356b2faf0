/-
Answers of the built-in search, for orders that the order of the computed distances implies.
-/
import Verif.Proofs.Nearest

namespace Scc

variable {F : Type} [FloatOps F]

/-- If "not farther" for computed distances implies `le`, then the built-in search finds the points that are nearest with respect to `le`. -/
def builtinSpi_implied (laws : FloatLaws F) (ds : DataSet F) (hc : ds.Complete) (hnum : ∀ i j, i < ds.n → j < ds.n → IsNum (ds.sqd i j)) {le : Nat → Nat → Nat → Prop}
    (h : ∀ q x y, q < ds.n → x < ds.n → y < ds.n → ds.NoFarther q x y → le q x y) : SpiOk (builtinSpi (some ds)) ds.n (Nearest le ds.Within) ds.dist False :=
  builtinSpi_with ds hc fun set k R q h1 h2 h3 h4 h5 => by
    have hcr := nnAnswer_criterion laws hnum set k R q h1 h2 h3 h4 h5
    have hsub : ∀ l, nnAnswer (ds.sqd q) set k R = some l → ∀ x ∈ l, x ∈ set := fun l hl x hx => ((nnAnswer_wellFormed (radius := R) h1 h5 q).2 l hl).2.2 hx
    cases ha : nnAnswer (ds.sqd q) set k R with
    | none => rw [ha] at hcr; exact hcr
    | some l =>
      rw [ha] at hcr
      obtain ⟨c1, c2, c3⟩ := hcr
      have hl := hsub l ha
      refine ⟨c1, ?_, fun x hx y hy hyl => h q x y h3 (h2 x (hl x hx)) (h2 y hy) (c3 x hx y hy hyl)⟩
      exact c2.imp_of_mem fun {a b} ha hb hab => h q a b h3 (h2 a (hl a ha)) (h2 b (hl b hb)) hab

end Scc
