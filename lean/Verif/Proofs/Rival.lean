/-
A clustering that the library accepts is a competitor in the guarantee C11 (for C85).
-/
import Verif.Spec.Rival
import Verif.Props.Consistent
import Verif.Props.Check
import Verif.Props.Approx

namespace Scc

variable {F : Type} [FloatOps F]

/-- The cluster of each point. -/
def labelFn (cfg : Cfg) (b : Buf Int) (v : Nat) : Option Nat :=
  match b.get v with
  | none => none
  | some l => if l = cfg.na then none else some l.toNat

theorem labelFn_some {cfg : Cfg} (hcfg : cfg.Valid) {b : Buf Int} {n k v : Nat} (hk : k ≤ cfg.clabelMax) (hv : ValidLabels cfg b n k) (hn : v < n) (h : b.get v ≠ some cfg.na) :
    ∃ c, c < k ∧ b.get v = some (c : Int) ∧ labelFn cfg b v = some c := by
  rcases hv v hn with h1 | ⟨c, hc, h1⟩
  · exact absurd h1 h
  · refine ⟨c, hc, h1, ?_⟩
    unfold labelFn
    rw [h1]
    rw [h1] at h
    show (if ((c : Nat) : Int) = cfg.na then none else some ((c : Int)).toNat) = some c
    rw [if_neg (fun e => h (by rw [e]))]
    simp

theorem labelFn_ne {cfg : Cfg} {b : Buf Int} {v : Nat} (h : labelFn cfg b v ≠ none) : b.get v ≠ some cfg.na := by
  intro e
  apply h
  unfold labelFn
  rw [e]
  exact if_pos rfl

theorem labelFn_get {cfg : Cfg} {b : Buf Int} {v c : Nat} (h : b.get v = some (c : Int)) (hne : b.get v ≠ some cfg.na) : labelFn cfg b v = some c := by
  unfold labelFn
  rw [h]
  rw [h] at hne
  show (if ((c : Nat) : Int) = cfg.na then none else some ((c : Int)).toNat) = some c
  rw [if_neg (fun e => hne (by rw [e]))]
  simp

theorem check_meets {cfg : Cfg} {o : Options F} {P : List Nat} {lab c : Nat → Nat} {ob : ClObj} {w w' : World} (hc : CheckOk cfg o ob P lab c w)
    (hrun : checkClustering cfg (some ob) o true w = some ((.ok, some true), w')) {lb : Blk Int} (hlb : ob.cl.label = some lb) : MeetsConstraints cfg o P lab c ob.cl.n ob.cl.numClusters lb.buf := by
  have hok : ob.cl.isInitialized cfg = true ∧ 0 < ob.cl.numClusters ∧ ValidOptions o ob.cl.n P := by
    by_contra hbad
    obtain ⟨e, w1, h1, -⟩ := C18_check_rejects hc hbad
    rw [hrun] at h1
    cases h1
  obtain ⟨hi, hk, hv⟩ := hok
  obtain ⟨e, ok, w1, lb1, h1, h2, -, ⟨-, h3⟩ | ⟨h3, h4, -⟩⟩ := C18_check_exact hc hi hk hv
  · rw [hrun] at h1
    cases h1
    rw [hlb] at h2
    cases h2
    exact h3.1 rfl
  · rw [hrun] at h1
    cases h1
    cases h4

/-- An accepted clustering satisfies the constraints and assigns all primary points. -/
theorem Accepted.meets {cfg : Cfg} {spi : Spi F} {o : Options F} {P : List Nat} {lab c : Nat → Nat} {n : Nat} {ob : ClObj} {s : Stats F} (h : Accepted cfg spi o P lab c n ob s) {dist : Nat → Nat → F} {mayRefuse : Prop}
    (hm : MatrixOk spi n dist mayRefuse) : ∃ lb, ob.cl.label = some lb ∧ cfg.Valid ∧ ob.cl.numClusters ≤ cfg.clabelMax ∧ MeetsConstraints cfg o P lab c n ob.cl.numClusters lb.buf ∧ (∀ v ∈ P, v < n ∧ lb.buf.get v ≠ some cfg.na) ∧
      (FiniteDists n dist → ExtremesAre dist n ob.cl.numClusters lb.buf s) := by
  obtain ⟨w1, w2, hck, hrun⟩ := h.check
  obtain ⟨w3, w4, hst, hrun2⟩ := h.stats
  have hn := h.points
  obtain ⟨lb, hlb, hk, hv, hS, -⟩ := stats_of_ok (dist := dist) (mayRefuse := mayRefuse) (by rw [hn]; exact hm) hst hrun2
  have hmeets := check_meets hck hrun hlb
  have hrange := hck.arrays.range
  have hall := hck.arrays.all
  have hext := fun hd : FiniteDists ob.cl.n dist => C20_extremes (by rw [hn]; exact hm) hst hd hrun2 hlb
  rw [hn] at hmeets hrange hall hS hext
  refine ⟨lb, hlb, hck.config, hk, hmeets, fun v hvP => ⟨hrange v hvP, ?_⟩, hext⟩
  cases hp : o.primary with
  | some b => exact hmeets.primary (by rw [hp]; nofun) v hvP
  | none =>
    have h1 := h.covers hp
    rw [hS.assigned, hS.points] at h1
    have h2 : (List.range n).filter (fun v => decide (lb.buf.get v ≠ some cfg.na)) = List.range n :=
      List.Sublist.eq_of_length List.filter_sublist (by rw [h1, List.length_range])
    have h3 : v ∈ (List.range n).filter (fun v => decide (lb.buf.get v ≠ some cfg.na)) := by rw [h2]; exact List.mem_range.2 (hrange v hvP)
    exact of_decide_eq_true (List.mem_filter.1 h3).2

theorem feasible_of_meets {K : Type} [AddCommMonoid K] [LinearOrder K] [IsOrderedAddMonoid K] {cfg : Cfg} (hcfg : cfg.Valid) {o : Options F} {P : List Nat} {lab c : Nat → Nat} {n k : Nat} {b : Buf Int} (hk : k ≤ cfg.clabelMax) (h : MeetsConstraints cfg o P lab c n k b)
    (hP : ∀ v ∈ P, v < n ∧ b.get v ≠ some cfg.na) {d : Nat → Nat → K} {D : K} (hD : ∀ u v, SameCluster b n k u v → d u v ≤ D) : Feasible d n o P lab c D (labelFn cfg b) where
  assigned v hv := by
    obtain ⟨i, -, -, e⟩ := labelFn_some hcfg hk h.labels (hP v hv).1 (hP v hv).2
    rw [e]; nofun
  size v hv := by
    obtain ⟨i, hi, g, e⟩ := labelFn_some hcfg hk h.labels (hP v hv).1 (hP v hv).2
    refine (h.size i hi).trans (le_of_eq ?_)
    unfold members
    congr 1
    refine List.filter_congr fun x hx => decide_eq_decide.2 ?_
    rw [e]
    constructor
    · intro g'
      exact labelFn_get g' (by rw [g', ← g]; exact (hP v hv).2)
    · intro g'
      obtain ⟨j, -, g2, e2⟩ := labelFn_some hcfg hk h.labels (List.mem_range.1 hx) (labelFn_ne (by rw [g']; nofun))
      rw [g'] at e2
      cases e2
      exact g2
  types h2 v hv t ht := by
    obtain ⟨i, hi, g, e⟩ := labelFn_some hcfg hk h.labels (hP v hv).1 (hP v hv).2
    refine (h.types h2 i hi t ht).trans (le_of_eq ?_)
    unfold members
    rw [List.countP_eq_length_filter, List.filter_filter]
    congr 1
    refine List.filter_congr fun x hx => ?_
    rw [← Bool.decide_and]
    refine decide_eq_decide.2 ?_
    rw [e]
    constructor
    · rintro ⟨h1, g'⟩
      exact ⟨labelFn_get g' (by rw [g', ← g]; exact (hP v hv).2), h1⟩
    · rintro ⟨g', h1⟩
      obtain ⟨j, -, g2, e2⟩ := labelFn_some hcfg hk h.labels (List.mem_range.1 hx) (labelFn_ne (by rw [g']; nofun))
      rw [g'] at e2
      cases e2
      exact ⟨h1, g2⟩
  diameter u v hu hv h1 h2 := by
    obtain ⟨i, hi, g, e⟩ := labelFn_some hcfg hk h.labels hu (labelFn_ne h1)
    obtain ⟨j, hj, g2, e2⟩ := labelFn_some hcfg hk h.labels hv (labelFn_ne (by rw [← h2]; exact h1))
    rw [e, e2] at h2
    cases h2
    exact hD u v ⟨hu, hv, i, hi, g, g2⟩

end Scc
