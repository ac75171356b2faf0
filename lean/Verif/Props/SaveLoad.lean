/-
Property C87: a clustering can be exported and built again from the exported labels, and the new object is judged like the old one. The specification is in Spec/SaveLoad.lean.
-/
import Verif.Spec.SaveLoad
import Verif.Props.Objects
import Verif.Props.Check
import Verif.Props.Stats

namespace Scc

/-- C87. `scc_get_cluster_labels` writes the labels of a clustering that is not empty to an array of the client, whatever was in it, and `scc_init_existing_clustering` makes an object for the same
clustering from that array, with or without a copy of the labels; it can fail only for lack of memory. -/
theorem C87_save_load {cfg : Cfg} {ob : ClObj} {w : World} {lb : Blk Int} (hu : Usable cfg ob w) (hk : 0 < ob.cl.numClusters) (hlb : ob.cl.label = some lb) (hf : Filled lb.buf ob.cl.n)
    (hroom : ob.cl.n < cfg.sizeMax ∧ ob.cl.numClusters ≤ cfg.sizeMax) {id len : Nat} {b : Buf Int} (hid : id ∈ w.live) (hlen : ob.cl.n ≤ len) (hb : len ≤ b.len) (deep : Bool) :
    ∃ b', getLabels cfg (some ob) len (some b) w = some ((.ok, some b'), w) ∧ ∃ e p w', initExisting cfg ob.cl.n ob.cl.numClusters (some ⟨id, b'⟩) deep true w = some ((e, p), w') ∧
      (e = .ok ∧ (∃ ob', p = some ob' ∧ SameClustering ob ob' ∧ Usable cfg ob' w' ∧ ob'.id ∉ w.live ∧ (∃ lb', ob'.cl.label = some lb' ∧ (lb'.id = id ↔ deep = false))) ∨
       e = .noMemory ∧ p = none ∧ w'.live = w.live ∧ ¬ w.NoFail) := by
  obtain ⟨i1, i2, i3, i4, i5⟩ := isInitialized_iff.1 hu.init
  obtain ⟨b', h1, h2, h3, -⟩ := C36_export hu hk hlb hf (len := len) (b := b) (by omega) hb
  refine ⟨b', h1, ?_⟩
  obtain ⟨⟨e, p⟩, w', g1, -, g2⟩ := initExisting_spec (cfg := cfg) (n := ob.cl.n) (k := ob.cl.numClusters) (labels := some ⟨id, b'⟩) (deep := deep) (hasOut := true) (w := w)
    (by rintro x hx; cases hx; exact ⟨hid, by show _ ≤ b'.len; omega⟩)
  refine ⟨e, p, w', g1, ?_⟩
  have hgood : true = true ∧ GoodExisting cfg ob.cl.n ob.cl.numClusters (some ⟨id, b'⟩) := ⟨rfl, ⟨i2, i3, by omega⟩, by omega, i4, hroom.2, by simp⟩
  have hget : ∀ v, v < ob.cl.n → b'.get v = lb.buf.get v := fun v hv => h3 v (by omega)
  rcases g2 with ⟨-, ⟨g2, -, src, g3, ⟨rfl, i, hi, g4, g5⟩ | ⟨rfl, i, j, c, hi, hj, g4, g5, g6, g7⟩⟩ | ⟨g2, g3, g4⟩⟩ | ⟨g2, -⟩
  · cases g3
    refine Or.inl ⟨g2, _, g4, ⟨rfl, rfl, fun x y hx hy v hv => ?_⟩, ⟨?_, ?_, ?_⟩, hi, _, rfl, by simp⟩
    · rw [hlb] at hx
      cases hx
      cases hy
      exact hget v hv
    · exact isInitialized_iff.2 ⟨rfl, i2, i3, i4, by simp⟩
    · rw [g5]; simp
    · intro x hx
      cases hx
      exact ⟨by rw [g5]; simp [hid], by show ob.cl.n ≤ b'.len; omega⟩
  · cases g3
    refine Or.inl ⟨g2, _, g4, ⟨rfl, rfl, fun x y hx hy v hv => ?_⟩, ⟨?_, ?_, ?_⟩, hi, _, rfl, ?_⟩
    · rw [hlb] at hx
      cases hx
      cases hy
      exact (g7 v hv).trans (hget v hv)
    · exact isInitialized_iff.2 ⟨rfl, i2, i3, i4, by simp⟩
    · rw [g5]; simp
    · intro x hx
      cases hx
      exact ⟨by rw [g5]; simp, by show ob.cl.n ≤ c.len; omega⟩
    · refine ⟨fun h => ?_, fun h => by cases h⟩
      dsimp only at h
      exact absurd (h ▸ hid) hj
  · exact Or.inr ⟨g3, g2.null, g2.live, g4⟩
  · exact absurd hgood g2

/-- Also a copy is the same clustering. -/
theorem C87_copy {cfg : Cfg} {ob ob' : ClObj} {w w' : World} (hu : Usable cfg ob w) (hk : 0 < ob.cl.numClusters) (hr : copyClustering cfg (some ob) true w = some ((.ok, some ob'), w')) : SameClustering ob ob' := by
  obtain ⟨h1, h2, -, -, h3, -⟩ := C35_copy hu hr
  obtain ⟨lb, lb', g1, g2, g3⟩ := h3 hk
  refine ⟨h1, h2, fun x y hx hy v hv => ?_⟩
  rw [g1] at hx
  rw [g2] at hy
  cases hx
  cases hy
  exact g3 v hv

section
variable {F : Type} [FloatOps F]

theorem members_same {b b' : Buf Int} {n : Nat} (h : ∀ v, v < n → b'.get v = b.get v) : members b' n = members b n := by
  funext c
  unfold members
  exact List.filter_congr fun v hv => by rw [h v (List.mem_range.1 hv)]

theorem SizesTo.unique {n k i : Nat} {b b' : Buf Int} (hm : members b' n = members b n) {s s' : Stats F} (h : SizesTo n k b i s) (h' : SizesTo n k b' i s') : s' = s := by
  have hcl : ∀ m, clustersFrom b' n i m = clustersFrom b n i m := fun m => by unfold clustersFrom; rw [hm]
  have hst : startOf b' n i = startOf b n i := by unfold startOf; rw [hm]
  have h1 : s'.populated = s.populated := by rw [h.populated, h'.populated, hcl]
  have h2 : s'.numAssigned = s.numAssigned := by rw [h.assigned, h'.assigned, hst]
  have h3 : s'.minSize = s.minSize := by
    obtain ⟨a1, -, a3, a4⟩ := h.minSize
    obtain ⟨b1, -, b3, b4⟩ := h'.minSize
    rw [hcl, hm] at b1 b3
    rw [hcl] at b4
    by_cases he : clustersFrom b n i 1 = []
    · rw [a4 he, b4 he]
    · obtain ⟨c, hc, e⟩ := a3 he
      obtain ⟨c', hc', e'⟩ := b3 he
      have := a1 c' hc'
      have := b1 c hc
      omega
  have h4 : s'.maxSize = s.maxSize := by
    obtain ⟨a1, a3, a4⟩ := h.maxSize
    obtain ⟨b1, b3, b4⟩ := h'.maxSize
    rw [hcl, hm] at b1 b3
    rw [hcl] at b4
    by_cases he : clustersFrom b n i 1 = []
    · rw [a4 he, b4 he]
    · obtain ⟨c, hc, e⟩ := a3 he
      obtain ⟨c', hc', e'⟩ := b3 he
      have := a1 c' hc'
      have := b1 c hc
      omega
  rw [h.rest, h'.rest, h1, h2, h3, h4]

/-- C87: the statistics of two objects for the same clustering are equal, in every digit, for all heaps and all back ends that give the same distances. -/
theorem C87_stats {cfg : Cfg} {spi spi' : Spi F} {dist : Nat → Nat → F} {mayRefuse mayRefuse' : Prop} {ob ob' : ClObj} (hsame : SameClustering ob ob') {w w' w1 w1' : World} (hm : MatrixOk spi ob.cl.n dist mayRefuse)
    (hm' : MatrixOk spi' ob'.cl.n dist mayRefuse') (h : StatsOk cfg ob w) (h' : StatsOk cfg ob' w') {s s' : Option (Stats F)} (hrun : getStats cfg spi (some ob) true w = some ((.ok, s), w1))
    (hrun' : getStats cfg spi' (some ob') true w' = some ((.ok, s'), w1')) : s = s' := by
  have main : ∀ {spi : Spi F} {mayRefuse : Prop} {ob : ClObj} {w w1 : World} {s : Option (Stats F)}, MatrixOk spi ob.cl.n dist mayRefuse → StatsOk cfg ob w → getStats cfg spi (some ob) true w = some ((.ok, s), w1) →
      ∃ lb t, ob.cl.label = some lb ∧ s = some t ∧ Computed dist ob.cl.n ob.cl.numClusters lb.buf t := by
    intro spi mayRefuse ob w w1 s hm h hrun
    obtain ⟨⟨e, o⟩, w2, h1, -, ⟨-, -, -, -, lb, h3, ⟨h4, h5, t, h6, h7⟩ | ⟨h4, h5, h6⟩⟩ | ⟨h3, h4, -⟩⟩ := getStats_spec hm h
    · rw [hrun] at h1
      cases h1
      exact ⟨lb, t, h3, h6, h7⟩
    · rw [hrun] at h1
      cases h1
      rcases h6 with ⟨h6, -⟩ | ⟨h6, -⟩ <;> cases h6
    · rw [hrun] at h1
      cases h1
      cases h4
  obtain ⟨lb, t, g1, rfl, st, g3, g4⟩ := main hm h hrun
  obtain ⟨lb', t', g1', rfl, st', g3', g4'⟩ := main hm' h' hrun'
  have hmem := members_same (hsame.labels lb lb' g1 g1')
  rw [hsame.points, hsame.clusters] at g3' g4'
  have hst := g3.unique hmem g3'
  have hinto : clusterInto dist lb'.buf ob.cl.n = clusterInto dist lb.buf ob.cl.n := by
    funext s c
    unfold clusterInto clusterDists
    rw [hmem]
  rw [g4, g4', hst, hinto]

/-- C87: `scc_check_clustering` says the same of two objects for the same clustering. -/
theorem C87_check {cfg : Cfg} {o : Options F} {ob ob' : ClObj} (hsame : SameClustering ob ob') {P : List Nat} {lab c : Nat → Nat} {w w' w1 w1' : World} (hc : CheckOk cfg o ob P lab c w) (hc' : CheckOk cfg o ob' P lab c w')
    {r r' : Option Bool} (hrun : checkClustering cfg (some ob) o true w = some ((.ok, r), w1)) (hrun' : checkClustering cfg (some ob') o true w' = some ((.ok, r'), w1')) : r = r' := by
  obtain ⟨⟨e, _⟩, _, h1, -, ⟨h2, -, hi, -, -, lb, a, h3, h4, h5⟩ | ⟨h2, h3, h4⟩⟩ := checkClustering_spec hc
  swap
  · rw [hrun] at h1
    cases h1
    exact absurd rfl h2.ne_ok
  rw [hrun] at h1
  cases h1
  obtain ⟨⟨e', _⟩, _, h1', -, ⟨h2', -, hi', -, -, lb', a', h3', h4', h5'⟩ | ⟨h2', h3', h4'⟩⟩ := checkClustering_spec hc'
  swap
  · rw [hrun'] at h1'
    cases h1'
    exact absurd rfl h2'.ne_ok
  rw [hrun'] at h1'
  cases h1'
  dsimp only at h4 h4'
  subst h4 h4'
  have hl := hsame.labels lb lb' h3 h3'
  have hmem := members_same hl
  rw [hsame.points, hsame.clusters] at h5'
  rw [Option.some.injEq, Bool.eq_iff_iff, h5, h5']
  have hrange := hc.arrays.range
  constructor
  · rintro ⟨m1, m2, m3, m4⟩
    refine ⟨fun v hv => ?_, fun hp v hv => ?_, fun i hi => ?_, fun ht i hi t => ?_⟩
    · rcases m1 v hv with m | ⟨c, hc, m⟩
      · exact Or.inl ((hl v hv).trans m)
      · exact Or.inr ⟨c, hc, (hl v hv).trans m⟩
    · unfold Unassigned
      rw [hl v (hrange v hv)]
      exact m2 hp v hv
    · rw [hmem]; exact m3 i hi
    · rw [hmem]; exact m4 ht i hi t
  · rintro ⟨m1, m2, m3, m4⟩
    refine ⟨fun v hv => ?_, fun hp v hv => ?_, fun i hi => ?_, fun ht i hi t => ?_⟩
    · rcases m1 v hv with m | ⟨c, hc, m⟩
      · exact Or.inl ((hl v hv).symm.trans m)
      · exact Or.inr ⟨c, hc, (hl v hv).symm.trans m⟩
    · unfold Unassigned
      rw [← hl v (hrange v hv)]
      exact m2 hp v hv
    · rw [← hmem]; exact m3 i hi
    · rw [← hmem]; exact m4 ht i hi t

end

/-! ### Examples -/

/-- A clustering of four points is written to a longer array of the client and built again. -/
example (deep : Bool) : ∃ b', getLabels sampleCfg (some exObj) 6 (some (Buf.raw 7)) (sampleWorld [5, 6, 7]) = some ((.ok, some b'), sampleWorld [5, 6, 7]) ∧
    ∃ ob' w', initExisting sampleCfg 4 2 (some ⟨7, b'⟩) deep true (sampleWorld [5, 6, 7]) = some ((.ok, some ob'), w') ∧ SameClustering exObj ob' := by
  have hu : Usable sampleCfg exObj (sampleWorld [5, 6, 7]) := ⟨rfl, by decide, fun lb h => by cases h; exact ⟨by decide, by decide⟩⟩
  obtain ⟨b', h1, e, p, w', h2, ⟨rfl, ob', rfl, h3, -⟩ | ⟨-, -, -, h3⟩⟩ := C87_save_load hu (by decide) (lb := exLabels) rfl exLabels_filled (by decide) (id := 7) (len := 6) (b := Buf.raw 7) (by decide) (by decide) (by decide) deep
  · exact ⟨b', h1, ob', w', h2, h3⟩
  · exact absurd (fun _ _ => rfl) h3

/-- Two objects for the same clustering, the second of which has a longer label array: the hypotheses hold, and both calls report the same. -/
example : SameClustering (hiObj 6 4 (some ⟨6, statLabels⟩)) (hiObj 6 4 (some ⟨6, Buf.ofList [0, 3, 0, 0, 1, 3, 77, 78]⟩)) ∧ StatsOk sampleCfg (hiObj 6 4 (some ⟨6, statLabels⟩)) (sampleWorld [5, 6]) ∧
    StatsOk sampleCfg (hiObj 6 4 (some ⟨6, Buf.ofList [0, 3, 0, 0, 1, 3, 77, 78]⟩)) (sampleWorld [5, 6]) ∧
    statSummary (getStats sampleCfg (builtinSpi (some lineData)) (some (hiObj 6 4 (some ⟨6, Buf.ofList [0, 3, 0, 0, 1, 3, 77, 78]⟩))) true (sampleWorld [5, 6])) = some (.ok, [6, 6, 4, 3, 1, 3], [2, 33, 0, 19, 7, 8, 8, 7]) := by
  refine ⟨⟨rfl, rfl, fun x y hx hy => ?_⟩, statsOk_sample (by decide +kernel), statsOk_sample (by decide +kernel), by decide +kernel⟩
  cases hx
  cases hy
  show ∀ v, v < 6 → _
  decide +kernel

end Scc
