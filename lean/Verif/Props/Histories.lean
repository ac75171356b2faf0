/-
Histories (C34, C35, C40) with hierarchical clustering and statistics: concrete cases. The theorems are in Props/Objects.lean and Props/Registration.lean.
-/
import Verif.Props.Objects
import Verif.Props.Hierarchical
import Verif.Props.Stats

namespace Scc

/-- From an allowed action to the next state of a history, with the error code computed. -/
theorem Reaches.next {cfg : Cfg} (hcfg : cfg.Valid) {U : Multiset Nat} {w0 w : World} {codes : List ErrorCode} {objs : List ClObj} (h : Reaches Int cfg U w0 codes objs w) (op : Op Int)
    (ha : op.Allowed cfg U objs w) {e : ErrorCode} {k : Nat} (hk : (op.run cfg objs w).map (fun r => (r.1.1, r.1.2.length)) = some (e, k)) :
    ∃ objs' w', op.run cfg objs w = some ((e, objs'), w') ∧ objs'.length = k ∧ Reaches Int cfg U w0 (e :: codes) objs' w' := by
  obtain ⟨⟨e', objs'⟩, w', hr⟩ := C34_no_undefined hcfg h op ha
  rw [hr] at hk
  simp only [Option.map_some, Option.some.injEq, Prod.mk.injEq] at hk
  obtain ⟨rfl, rfl⟩ := hk
  exact ⟨objs', w', hr, rfl, h.step op ha hr⟩

theorem lineHi_allowed {objs : List ClObj} {i : Nat} {w : World} (h : ∀ ob, objs[i]? = some ob → ob.cl.n = 6 ∧ ob.cl.numClusters = 0) (batch : Bool) :
    (Op.hierarchical i sampleEnv (builtinSpi (some lineData)) 2 batch).Allowed sampleCfg 0 objs w := by
  intro ob hob
  obtain ⟨h1, h2⟩ := h ob hob
  rw [h1, h2]
  exact ⟨sampleEnv_ok, ⟨_, _, (intMetric lineData_complete).laws, ⟨builtinMetric (intMetric lineData_complete)⟩, fun _ => by unfold Spread; decide +kernel⟩, by decide, fun h => absurd rfl h⟩

/-- An empty clustering is made, its points are clustered, and it is freed. In the end nothing is left. -/
example : ∃ w, Reaches Int sampleCfg 0 (sampleWorld []) [.ok, .ok, .ok] [] w ∧ w.live = 0 := by
  have h1 := Reaches.step (F := Int) (cfg := sampleCfg) (U := 0) (w0 := sampleWorld []) (Op.initEmpty 6 none true) (.start rfl) nofun rfl
  obtain ⟨objs, w, -, hlen, h2⟩ := h1.next sampleCfg_valid (.hierarchical 0 sampleEnv (builtinSpi (some lineData)) 2 true)
    (lineHi_allowed (by rintro ob h; cases h; exact ⟨rfl, rfl⟩) true) (e := .ok) (k := 1) (by decide +kernel)
  obtain ⟨⟨e, objs'⟩, w', hr⟩ := C34_no_undefined sampleCfg_valid h2 (.free 0) trivial
  have h3 := h2.step (.free 0) trivial hr
  have : e = .ok ∧ objs' = [] := by
    match objs, hlen with
    | [ob], _ =>
      obtain ⟨_, w2, h4, -⟩ := freeClustering_spec (ob := ob) (w := w) (L := 0) (by rw [C34_memory sampleCfg_valid h2]; simp [owned])
      simp only [Op.run, List.getElem?_cons_zero, bind, StateT.bind, h4, Option.bind_some] at hr
      cases hr
      exact ⟨rfl, rfl⟩
  obtain ⟨rfl, rfl⟩ := this
  exact ⟨w', h3, by rw [C34_memory sampleCfg_valid h3]; rfl⟩

/-- Memory runs out while points are clustered: the clustering is empty as before, and can be used again. -/
example : ∃ objs w, Reaches Int sampleCfg 0 { sampleWorld [] with fails := fun i _ => decide (i = 108) } [.noMemory, .ok] objs w ∧ objs.length = 1 ∧ w.live = owned objs := by
  have h1 := Reaches.step (F := Int) (cfg := sampleCfg) (U := 0) (w0 := { sampleWorld [] with fails := fun i _ => decide (i = 108) }) (Op.initEmpty 6 none true) (.start rfl) nofun rfl
  obtain ⟨objs, w, -, hlen, h2⟩ := h1.next sampleCfg_valid (.hierarchical 0 sampleEnv (builtinSpi (some lineData)) 2 true)
    (lineHi_allowed (by rintro ob h; cases h; exact ⟨rfl, rfl⟩) true) (e := .noMemory) (k := 1) (by decide +kernel)
  exact ⟨objs, w, h2, hlen, by rw [C34_memory sampleCfg_valid h2, zero_add]⟩

/-- Labels of six points in an array of the client. -/
def sixLabels : Blk Int := ⟨6, Buf.ofList [0, 0, 0, 1, 1, 1]⟩

/-- A clustering is made from the array, and its statistics are computed. -/
example : ∃ objs w, Reaches Int sampleCfg {6} (sampleWorld [6]) [.ok, .ok] objs w ∧ objs.length = 1 := by
  have hall : ∀ b, some sixLabels = some b → b.id ∈ ({6} : Multiset Nat) ∧ 6 ≤ b.buf.len ∧ Filled b.buf 6 := by
    intro b hb
    cases hb
    refine ⟨by decide, by decide, fun v hv => ?_⟩
    show ∃ l, (Buf.ofList [0, 0, 0, 1, 1, 1] : Buf Int).get v = some l
    rw [Buf.get_ofList]
    exact ⟨_, List.getElem?_eq_getElem hv⟩
  have h1 := Reaches.step (F := Int) (cfg := sampleCfg) (U := {6}) (w0 := sampleWorld [6]) (Op.initExisting 6 2 (some sixLabels) false true) (.start rfl) hall rfl
  obtain ⟨objs, w, -, hlen, h2⟩ := h1.next sampleCfg_valid (.stats 0 (builtinSpi (some lineData)) true)
    (by
      rintro ob h
      cases h
      refine ⟨⟨_, _, builtinMatrix lineData_complete⟩, ?_, by decide⟩
      rintro - lb h
      cases h
      unfold ValidLabels Unassigned
      decide +kernel) (e := .ok) (k := 1) (by decide +kernel)
  exact ⟨objs, w, h2, hlen⟩

end Scc
