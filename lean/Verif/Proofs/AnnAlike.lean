/-
The ANN back end gives the same results as without its leaks.
-/
import Verif.Spec.Ann
import Verif.Proofs.Rerun

namespace Scc

variable {F : Type} [FloatOps F] {T : Twin}

/-- Search objects of the ANN wrapper. -/
inductive AnnAlike (T : Twin) : AnnObj → AnnObj → Prop
  | mk {i j p q t u len : Nat} {a b : Option Arr} {set : List Nat} (hi : T.Names i j) (hp : T.Names p q) (ht : T.Names t u) (ha : ArrAlike T a b) : AnnAlike T ⟨i, p, t, len, a, set⟩ ⟨j, q, u, len, b, set⟩

theorem annLoop_congr {a b : Option Arr} (ha : ArrAlike T a b) (lenQ k : Nat) (out : OutQ) (nn : Buf Nat) (step : Nat → Nat → Buf Nat → Option (Bool × Buf Nat)) :
    annLoop lenQ a k out nn step = annLoop lenQ b k out nn step := by
  have h1 : outQBuf a out = outQBuf b out := by cases out <;> simp only [outQBuf, ha.bufs]
  have h2 : queryAt a out = queryAt b out := by
    funext cur i
    cases ha with
    | null => rfl
    | arr h => cases out <;> rfl
  unfold annLoop
  rw [h1, h2]

theorem annStep_congr {a b : Option Arr} (ha : ArrAlike T a b) (lib : AnnLib F) (ds : DataSet F) (set : List Nat) (k : Nat) (rs : Bool) (rsq : F) :
    annStep lib ds set a k rs rsq = annStep lib ds set b k rs rsq := by
  funext q base nn
  unfold annStep
  rw [ha.get]

theorem AnnAlike.ids {o o' : AnnObj} (h : AnnAlike T o o') {q q' : Option Arr} (hq : ArrAlike T q q') : IdsAlike T (o.ids q) (o'.ids q') := by
  obtain ⟨hi, hp, ht, ha⟩ := h
  exact .cons hi (.cons hp (.cons ht (idsAlike_append ha.ids hq.ids)))

theorem carry_alike {q q' : Option Arr} (hq : ArrAlike T q q') (out : OutQ) (b : Buf Nat) : ArrAlike T (carryQueries q out b) (carryQueries q' out b) := by
  cases out with
  | null => exact hq
  | buf c => exact hq
  | same =>
    cases hq with
    | null => exact .null
    | arr h => exact .arr h

/-- A block that the second process forgets to free when the request that follows fails. -/
theorem same_forget {R : α → β → Prop} {i : Nat} {x : M α} {y : M β} (hx : T.exact → False) (h : T.Same R x y) : T.Same R (do freeId i; x) y := same_freeLeft hx h

theorem same_annInit (hT : T.exact → T.calm) (ds : DataSet F) (len : Nat) (p q : Option Arr) (hp : ArrAlike T p q) : T.Same (OptAlike (AnnAlike T)) (annInitTidy ds len p) (annInit ds len q) := by
  unfold annInitTidy annInit
  refine same_ite Iff.rfl (fun _ => same_pure .none) fun _ => same_bind same_alloc fun a b hab => ?_
  cases hab with
  | null => exact same_pure .none
  | ptr h1 =>
    refine same_bind same_allocC fun a b hab => ?_
    obtain ⟨hab, hcalm⟩ := hab
    cases hab with
    | null => exact same_forget (fun hx => hcalm (hT hx) rfl) (same_pure .none)
    | ptr h2 =>
      refine same_bind (same_useK (.cons h1 hp.ids) (by unfold annPoints; rw [hp.get])) fun x y hxy => ?_
      subst hxy
      refine same_bind same_alloc fun a b hab => ?_
      cases hab with
      | null => exact same_bind (same_freeId h1) fun _ _ _ => same_bind (same_freeId h2) fun _ _ _ => same_pure .none
      | ptr h3 =>
        refine same_bind (same_useK (.cons h1 (.cons h3 .nil)) rfl) fun x y hxy => ?_
        subst hxy
        exact same_pure (.some (.mk h2 h1 h3 hp))

theorem same_annGeneral (hT : T.exact → T.calm) (lib : AnnLib F) (ds : DataSet F) {o o' : AnnObj} (lenQ : Nat) {q q' : Option Arr} (k : Nat) (rs : Bool) (r : F) (out : OutQ) (nn : Buf Nat) (ho : AnnAlike T o o')
    (hq : ArrAlike T q q') : T.Same Eq (annGeneralTidy lib ds o lenQ q k rs r out nn) (annGeneral lib ds o' lenQ q' k rs r out nn) := by
  unfold annGeneralTidy annGeneral
  refine same_bind same_alloc fun a b hab => ?_
  cases hab with
  | null => exact same_pure rfl
  | ptr h1 =>
    refine same_bind same_allocC fun a b hab => ?_
    obtain ⟨hab, hcalm⟩ := hab
    cases hab with
    | null => exact same_forget (fun hx => hcalm (hT hx) rfl) (same_pure rfl)
    | ptr h2 =>
      refine same_bind (same_useK (.cons h1 (.cons h2 (ho.ids hq))) ?_) fun x y hxy => ?_
      · obtain ⟨hi, hp, ht, ha⟩ := ho
        rw [annLoop_congr hq, annStep_congr ha]
      · subst hxy
        exact same_bind (same_freeId h1) fun _ _ _ => same_bind (same_freeId h2) fun _ _ _ => same_pure rfl

theorem same_annSearch {direct : Bool} (hT : T.exact → T.calm ∧ direct = false) (lib : AnnLib F) (ds : DataSet F) (o o' : AnnObj) (lenQ : Nat) (q q' : Option Arr) (k : Nat) (rs : Bool) (r : F) (out : OutQ)
    (nn : Buf Nat) (ho : AnnAlike T o o') (hq : ArrAlike T q q') : T.Same Eq (annSearchTidy direct lib ds o lenQ q k rs r out nn) (annSearch direct lib ds o' lenQ q' k rs r out nn) := by
  have hs : o.search.isNone = o'.search.isNone := by
    obtain ⟨hi, hp, ht, ha⟩ := ho
    exact ha.isNone
  have hset : o.set = o'.set := by
    obtain ⟨hi, hp, ht, ha⟩ := ho
    rfl
  unfold annSearchTidy annSearch
  rw [hs, hset]
  refine same_ite Iff.rfl (fun _ => same_pure rfl) fun _ => same_ite Iff.rfl (fun hd => same_bind same_alloc fun a b hab => ?_) fun _ => same_annGeneral (fun hx => (hT hx).1) lib ds lenQ k rs r out nn ho hq
  cases hab with
  | null => exact same_pure rfl
  | ptr h1 =>
    refine same_bind (same_useK (.cons h1 (ho.ids hq)) (by rw [annLoop_congr hq])) fun x y hxy => ?_
    subst hxy
    cases rs with
    | true => exact same_bind (same_freeId h1) fun _ _ _ => same_pure rfl
    | false =>
      refine same_forget (fun hx => ?_) (same_annGeneral (fun hx => (hT hx).1) lib ds lenQ k false r _ _ ho (carry_alike hq _ _))
      rw [(hT hx).2] at hd
      cases hd

theorem same_annClose (o o' : AnnObj) (h : AnnAlike T o o') : T.Same Eq (annClose o) (annClose o') := by
  obtain ⟨hi, hp, ht, _⟩ := h
  exact same_bind (same_freeId ht) fun _ _ _ => same_bind (same_freeId hp) fun _ _ _ => same_bind (same_freeId hi) fun _ _ _ => same_pure rfl

/-- The ANN back end does the same with and without its leaks. If all requests for memory succeed and `scc_PointIndex` is not `int`, it has no leaks. -/
def annAlike {direct : Bool} (hT : T.exact → T.calm ∧ direct = false) (lib : AnnLib F) (p : Option (DataSet F)) : SpiAlike T (annTidySpi direct lib p) (annSpi direct lib p) where
  nn := AnnAlike T
  md := SearchAlike T
  valid := rfl
  numPoints := rfl
  distMatrix := (builtinAlike T p).distMatrix
  distRows := (builtinAlike T p).distRows
  maxInit := same_searchInit
  maxDist := (builtinAlike T p).maxDist
  maxClose := same_searchClose
  nnInit := same_annInit (fun hx => (hT hx).1) _
  nnSearch := same_annSearch hT lib _
  nnClose := same_annClose

end Scc
