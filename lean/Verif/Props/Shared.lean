/-
C82: clustering objects that share a label array of the client. The actions of the client and the histories are defined in Spec/Shared.lean.
-/
import Verif.Proofs.Shared
import Verif.Props.Histories

namespace Scc

variable {F : Type} [FloatOps F]

/-- In every state that can be reached, every allowed action is free of undefined behaviour, however the objects share arrays. -/
theorem C82_no_undefined {cfg : Cfg} (hcfg : cfg.Valid) {U : Multiset Nat} {arr0 : Arrays} {w0 w : World} {codes : List ErrorCode} {c : Client} (h : SharedReaches F cfg U arr0 w0 codes c w)
    (op : SharedOp F) (ha : op.Allowed cfg U c w) : ∃ e c' w', op.run cfg c w = some ((e, c'), w') := by
  obtain ⟨e, c', w', h1, -⟩ := shared_step hcfg (shared_inv hcfg h) op ha
  exact ⟨e, c', w', h1⟩

/-- The library never frees an array of the client, and owns nothing but the objects and the arrays that it allocated itself. Freeing all objects leaves just the arrays of the client. -/
theorem C82_memory {cfg : Cfg} (hcfg : cfg.Valid) {U : Multiset Nat} {arr0 : Arrays} {w0 w : World} {codes : List ErrorCode} {c : Client} (h : SharedReaches F cfg U arr0 w0 codes c w) :
    w.live = U + owned c.objs ∧ ∃ w', freeAll c.objs w = some ((), w') ∧ w'.live = U := by
  have hl := (shared_inv hcfg h).inv.live
  obtain ⟨_, w', h1, h2⟩ := freeAll_spec c.objs w hl
  exact ⟨hl, w', h1, h2⟩

/-- The array of the client always holds the current labels of every object that uses it: exporting the labels of such an object gives the contents of the array. -/
theorem C82_current {cfg : Cfg} (hcfg : cfg.Valid) {U : Multiset Nat} {arr0 : Arrays} {w0 w : World} {codes : List ErrorCode} {c : Client} (h : SharedReaches F cfg U arr0 w0 codes c w)
    {ob : ClObj} (hob : ob ∈ c.objs) {a : Nat} (ha : ob.array = some a) (hk : 0 < ob.cl.numClusters) {len : Nat} {out : Buf Int} (hlen : 0 < len) (hout : len ≤ out.len) :
    ∃ out', Scc.getLabels cfg (some ob) len (some out) w = some ((.ok, some out'), w) ∧ ∀ v, v < min len ob.cl.n → out'.get v = (c.arr a).get v := by
  have hs := shared_inv hcfg h
  obtain ⟨i, hi⟩ := List.mem_iff_getElem?.1 hob
  have hx : ob.cl.external = true := by
    cases hx : ob.cl.external with
    | true => rfl
    | false => unfold ClObj.array at ha; rw [hx] at ha; cases ha
  obtain ⟨lb, hlb, e⟩ : ∃ lb, ob.cl.label = some lb ∧ lb.id = a := by
    unfold ClObj.array at ha
    rw [if_pos hx] at ha
    exact Option.map_eq_some_iff.1 ha
  obtain ⟨out', h1, -, h2, -⟩ := C36_export (hs.inv.usable hi).1 hk hlb ((hs.inv.fine ob hob).filled hk lb hlb) hlen hout
  exact ⟨out', h1, fun v hv => by rw [h2 v hv, hs.coh ob hob hx lb hlb, e]⟩

/-- A call changes at most the array of the object that it clusters (none if it makes, copies, reads or frees objects). Every object that is not clustered or freed is kept with its number of points, its number of clusters and its array;
unless that is the array that the call changes, it is kept as it was. -/
theorem C82_others {cfg : Cfg} (hcfg : cfg.Valid) {U : Multiset Nat} {arr0 : Arrays} {w0 w w' : World} {codes : List ErrorCode} {c c' : Client} (h : SharedReaches F cfg U arr0 w0 codes c w)
    (op : Op F) (ha : (SharedOp.call op).Allowed cfg U c w) {e : ErrorCode} (hr : (SharedOp.call op).run cfg c w = some ((e, c'), w')) :
    (∀ a, (∀ ob, op.stores c.objs = some ob → ob.array ≠ some a) → c'.arr a = c.arr a) ∧
    ∀ ob ∈ c.objs, op.changes c.objs ≠ some ob → ∃ ob' ∈ c'.objs, ob'.id = ob.id ∧ ob'.cl.n = ob.cl.n ∧ ob'.cl.numClusters = ob.cl.numClusters ∧ ob'.array = ob.array ∧
      ((∀ x, op.stores c.objs = some x → x.array = none ∨ x.array ≠ ob.array) → ob' = ob) := by
  have hs := shared_inv hcfg h
  obtain ⟨⟨e1, objs'⟩, w1, h1, h2, -⟩ := bind_pure_some (f := fun r : ErrorCode × List ClObj => (r.1, (⟨c.arraysAfter op r.2, r.2.map (ClObj.seen (c.arraysAfter op r.2))⟩ : Client))) hr
  cases h2
  dsimp only
  have harr : ∀ a, (∀ ob, op.stores c.objs = some ob → ob.array ≠ some a) → c.arraysAfter op objs' a = c.arr a := fun a => arraysAfter_other hs op ha.2 h1
  refine ⟨harr, fun ob hob hch => ⟨ob.seen (c.arraysAfter op objs'), List.mem_map.2 ⟨ob, C35_kept op hob hch h1, rfl⟩, ?_⟩⟩
  obtain ⟨s1, s2, s3, s4, s5, -⟩ := ob.seen_same (c.arraysAfter op objs')
  refine ⟨s1, s2, s3, s5, fun hx => ?_⟩
  refine Coherent.seen fun hext lb hlb => ?_
  have hself : ob.array = some lb.id := by unfold ClObj.array; simp [hext, hlb]
  rw [hs.coh ob hob hext lb hlb]
  refine (harr lb.id fun x hx' hxa => ?_).symm
  rcases hx x hx' with h | h
  · rw [hxa] at h; cases h
  · exact h (by rw [hxa, hself])

/-! ### Two objects of one array -/

/-- The array of the client at first: six points in one cluster. -/
def sharedLabels : Blk Int := ⟨6, .ofList [0, 0, 0, 0, 0, 0]⟩

/-- The client after making a clustering of one cluster and an empty one, both with this array. -/
def twoObjects : Client := ⟨fun _ => sharedLabels.buf, [⟨100, clusteringVersion, 6, 1, some sharedLabels, true⟩, ⟨101, clusteringVersion, 6, 0, some sharedLabels, true⟩]⟩

theorem sharedLabels_filled : Filled sharedLabels.buf 6 := by
  intro v hv
  show ∃ l, (Buf.ofList [0, 0, 0, 0, 0, 0] : Buf Int).get v = some l
  rw [Buf.get_ofList]
  exact ⟨_, List.getElem?_eq_getElem hv⟩

/-- Memory at that point: the array of the client and the two objects. -/
def twoWorld : World := { sampleWorld [6] with clock := 102, live := {101} + ({100} + (([6] : List Nat) : Multiset Nat)) }

theorem twoObjects_reached : SharedReaches Int sampleCfg {6} (fun _ => sharedLabels.buf) (sampleWorld [6]) [.ok, .ok] twoObjects twoWorld := by
  have h1 := SharedReaches.step (F := Int) (cfg := sampleCfg) (U := {6}) (arr0 := fun _ => sharedLabels.buf) (w0 := sampleWorld [6]) (.call (.initExisting 6 1 (some sharedLabels) false true)) (.start rfl)
    ⟨by rintro b hb; cases hb; exact ⟨by decide, by decide, sharedLabels_filled⟩, by rintro b hb; cases hb; rfl⟩ rfl
  exact h1.step (.call (.initEmpty 6 (some sharedLabels) true)) ⟨by rintro b hb; cases hb; exact ⟨by decide, by decide⟩, by rintro b hb; cases hb; rfl⟩ rfl

/-- The points are clustered in the second object. -/
def clusterSecond : SharedOp Int := .call (.cluster 1 (builtinSpi (some lineData)) (lineOpts .anyNeighbor .noRadius 0))

theorem clusterSecond_allowed : clusterSecond.Allowed sampleCfg {6} twoObjects twoWorld := by
  refine ⟨?_, trivial⟩
  rintro ob hob
  cases hob
  have h := line_call .anyNeighbor .noRadius 0
  exact ⟨fun _ => rfl, ⟨_, _, _, ⟨lineSpi_ok⟩⟩, ⟨_, _, _, h.arrays, h.limits⟩, nofun⟩

/-- Then both objects have the labels that the second one was given, and the first one still counts one cluster. -/
theorem clusterSecond_run : (clusterSecond.run sampleCfg twoObjects twoWorld).map (fun r => (r.1.1, r.1.2.objs.map fun ob => (ob.cl.numClusters, (ptrBuf ob.cl.label).read 6))) =
    some (.ok, [(1, some [0, 0, 0, 1, 1, 1]), (2, some [0, 0, 0, 1, 1, 1])]) := by decide +kernel

/-- C82 does not hold without the rule that statistics are asked for valid labels only: after the history above, asking for the statistics of the first object is undefined behaviour, because its number of clusters is that of the labels
that were in the array before. -/
theorem C82_fails_stale : ∃ codes c w, SharedReaches Int sampleCfg {6} (fun _ => sharedLabels.buf) (sampleWorld [6]) codes c w ∧ (∀ e ∈ codes, e = .ok) ∧
    (SharedOp.call (.stats 0 (builtinSpi (some lineData)) true)).run sampleCfg c w = none := by
  obtain ⟨e, c, w, hr⟩ := C82_no_undefined sampleCfg_valid twoObjects_reached clusterSecond clusterSecond_allowed
  have h1 : (clusterSecond.run sampleCfg twoObjects twoWorld).map (fun r => (r.1.1, ((SharedOp.call (.stats 0 (builtinSpi (some lineData)) true)).run sampleCfg r.1.2 r.2).isNone)) = some (.ok, true) := by decide +kernel
  rw [hr] at h1
  simp only [Option.map_some, Option.some.injEq, Prod.mk.injEq, Option.isNone_iff_eq_none] at h1
  obtain ⟨rfl, h1⟩ := h1
  refine ⟨_, c, w, twoObjects_reached.step _ clusterSecond_allowed hr, ?_, h1⟩
  simp

/-- `C82_memory`, `C82_current` and `C82_others` for this history: exporting the labels of the first object gives those that the second one was given, and the array of the client remains when the objects are freed. -/
example : ∃ c w ob, SharedReaches Int sampleCfg {6} (fun _ => sharedLabels.buf) (sampleWorld [6]) [.ok, .ok, .ok] c w ∧ ob ∈ c.objs ∧ ob.cl.numClusters = 1 ∧ (c.arr 6).read 6 = some [0, 0, 0, 1, 1, 1] ∧
    (∃ out', Scc.getLabels sampleCfg (some ob) 6 (some (.ofList [9, 9, 9, 9, 9, 9])) w = some ((.ok, some out'), w) ∧ ∀ v, v < 6 → out'.get v = (c.arr 6).get v) ∧ ∃ w', freeAll c.objs w = some ((), w') ∧ w'.live = {6} := by
  obtain ⟨e, c, w, hr⟩ := C82_no_undefined sampleCfg_valid twoObjects_reached clusterSecond clusterSecond_allowed
  have h1 : (clusterSecond.run sampleCfg twoObjects twoWorld).map (fun r => (r.1.1, (r.1.2.arr 6).read 6)) = some (.ok, some [0, 0, 0, 1, 1, 1]) := by decide +kernel
  rw [hr] at h1
  simp only [Option.map_some, Option.some.injEq, Prod.mk.injEq] at h1
  obtain ⟨rfl, h1⟩ := h1
  have h2 := twoObjects_reached.step _ clusterSecond_allowed hr
  obtain ⟨ob, hob, -, e1, e2, e3, -⟩ := (C82_others sampleCfg_valid twoObjects_reached _ clusterSecond_allowed hr).2 ⟨100, clusteringVersion, 6, 1, some sharedLabels, true⟩ (by simp [twoObjects])
    (by intro h; cases h)
  have hk : 0 < ob.cl.numClusters := by rw [e2]; decide
  obtain ⟨out', h3, h4⟩ := C82_current sampleCfg_valid h2 hob (e3.trans rfl) hk (len := 6) (out := .ofList [9, 9, 9, 9, 9, 9]) (by decide) (by decide)
  exact ⟨c, w, ob, h2, hob, e2, h1, ⟨out', h3, fun v hv => h4 v (by rw [e1]; exact hv)⟩, (C82_memory sampleCfg_valid h2).2⟩

end Scc
