/-
`scc_get_clustering_stats`: the loops.
-/
import Verif.Spec.Stats
import Verif.Proofs.Check
import Verif.Proofs.HiStack
import Verif.Proofs.DistMetric

namespace Scc

variable {F : Type} [FloatOps F]

/-! ### Sizes -/

omit [FloatOps F] in
theorem clustersFrom_succ (b : Buf Int) (n i s : Nat) : clustersFrom b n (i + 1) s = clustersFrom b n i s ++ if s ≤ (members b n i).length then [i] else [] := by
  unfold clustersFrom
  rw [List.range_succ, List.filter_append]
  congr 1
  by_cases h : s ≤ (members b n i).length
  · simp [h]
  · simp [h]

theorem mem_clustersFrom {b : Buf Int} {n k s c : Nat} : c ∈ clustersFrom b n k s ↔ c < k ∧ s ≤ (members b n c).length := by simp [clustersFrom]

/-- The statistics after the first loop has seen the clusters below `i`. -/
structure SizesTo (n k : Nat) (b : Buf Int) (i : Nat) (st : Stats F) : Prop where
  rest : st = { (startStats n k : Stats F) with populated := st.populated, numAssigned := st.numAssigned, minSize := st.minSize, maxSize := st.maxSize }
  populated : st.populated = (clustersFrom b n i 1).length
  assigned : st.numAssigned = startOf b n i
  minSize : (∀ c ∈ clustersFrom b n i 1, st.minSize ≤ (members b n c).length) ∧ st.minSize ≤ 2 ^ 64 - 1 ∧
    (clustersFrom b n i 1 ≠ [] → ∃ c ∈ clustersFrom b n i 1, st.minSize = (members b n c).length) ∧ (clustersFrom b n i 1 = [] → st.minSize = 2 ^ 64 - 1)
  maxSize : (∀ c ∈ clustersFrom b n i 1, (members b n c).length ≤ st.maxSize) ∧
    (clustersFrom b n i 1 ≠ [] → ∃ c ∈ clustersFrom b n i 1, st.maxSize = (members b n c).length) ∧ (clustersFrom b n i 1 = [] → st.maxSize = 0)

theorem SizesTo.step {n k : Nat} {b : Buf Int} {i : Nat} {st : Stats F} (h : SizesTo n k b i st) (hn : (members b n i).length ≤ 2 ^ 64 - 1) :
    SizesTo n k b (i + 1) (countCluster (members b n i).length st) := by
  unfold countCluster
  by_cases h0 : (members b n i).length = 0
  · rw [if_pos h0]
    have hc : clustersFrom b n (i + 1) 1 = clustersFrom b n i 1 := by rw [clustersFrom_succ, if_neg (by omega), List.append_nil]
    refine ⟨h.rest, ?_, ?_, ?_, ?_⟩
    · rw [hc]; exact h.populated
    · rw [startOf_succ, h0]; exact h.assigned
    · rw [hc]; exact h.minSize
    · rw [hc]; exact h.maxSize
  · rw [if_neg h0]
    have hc : clustersFrom b n (i + 1) 1 = clustersFrom b n i 1 ++ [i] := by rw [clustersFrom_succ, if_pos (by omega)]
    obtain ⟨m1, m2, m3, m4⟩ := h.minSize
    obtain ⟨x1, x2, x3⟩ := h.maxSize
    refine ⟨?_, ?_, ?_, ?_, ?_⟩
    · rw [h.rest]
    · show st.populated + 1 = _
      rw [hc, List.length_append, h.populated]; rfl
    · show st.numAssigned + _ = _
      rw [startOf_succ, h.assigned]
    · rw [hc]
      dsimp only
      refine ⟨fun c hc' => ?_, ?_, fun _ => ?_, by simp⟩
      · rcases List.mem_append.1 hc' with hc' | hc'
        · have := m1 c hc'
          split <;> omega
        · rw [List.mem_singleton] at hc'
          subst hc'
          split <;> omega
      · split <;> omega
      · by_cases hlt : (members b n i).length < st.minSize
        · exact ⟨i, by simp, by rw [if_pos hlt]⟩
        · rw [if_neg hlt]
          by_cases he : clustersFrom b n i 1 = []
          · refine ⟨i, by simp, ?_⟩
            have := m4 he
            omega
          · obtain ⟨c, hc1, hc2⟩ := m3 he
            exact ⟨c, List.mem_append_left _ hc1, hc2⟩
    · rw [hc]
      dsimp only
      refine ⟨fun c hc' => ?_, fun _ => ?_, by simp⟩
      · rcases List.mem_append.1 hc' with hc' | hc'
        · have := x1 c hc'
          split <;> omega
        · rw [List.mem_singleton] at hc'
          subst hc'
          split <;> omega
      · by_cases hlt : st.maxSize < (members b n i).length
        · exact ⟨i, by simp, by rw [if_pos hlt]⟩
        · rw [if_neg hlt]
          by_cases he : clustersFrom b n i 1 = []
          · have := x3 he
            omega
          · obtain ⟨c, hc1, hc2⟩ := x2 he
            exact ⟨c, List.mem_append_left _ hc1, hc2⟩

theorem members_length_le (b : Buf Int) (n c : Nat) : (members b n c).length ≤ n := by
  have := List.length_filter_le (fun v => decide (b.get v = some (c : Int))) (List.range n)
  simpa [members] using this

theorem sizeStats_spec {n k : Nat} {b : Buf Int} {sizes : Buf Nat} (hn : n ≤ 2 ^ 64 - 1) (hs : ∀ c, c < k → sizes.get c = some (members b n c).length) :
    Wp (sizeStats k sizes (startStats n k : Stats F)) (SizesTo n k b k) := by
  unfold sizeStats
  refine wp_forLt (SizesTo n k b) (Nat.zero_le _) ?_ ?_ (fun _ h => h)
  · refine ⟨rfl, rfl, rfl, ⟨by simp [clustersFrom], le_rfl, by simp [clustersFrom], fun _ => rfl⟩, ⟨by simp [clustersFrom], by simp [clustersFrom], fun _ => rfl⟩⟩
  · intro c st _ hc h
    rw [wp_bind, wp_eq (hs c hc), wp_pure]
    exact h.step (by have := members_length_le b n c; omega)

/-! ### Members -/

theorem statEnds_spec {n k : Nat} (hk : 0 < k) {b : Buf Int} {sizes ends : Buf Nat} (hl : ends.len = k) (hs : ∀ c, c < k → sizes.get c = some (members b n c).length) :
    Wp (statEnds k sizes ends) fun e => e.len = k ∧ ∀ c, c < k → e.get c = some (startOf b n (c + 1)) := by
  unfold statEnds
  rw [wp_bind, wp_eq (hs 0 hk), wp_bind, Buf.wp_set]
  refine ⟨by omega, ?_⟩
  refine wp_forLt (fun i (e : Buf Nat) => e.len = k ∧ ∀ c, c < i → e.get c = some (startOf b n (c + 1))) (by omega) ?_ ?_ (fun _ h => h)
  · refine ⟨hl, fun c hc => ?_⟩
    have h0 : c = 0 := by omega
    subst h0
    rw [Buf.get_upd_self _ _ (by omega), startOf_succ]
    simp [startOf]
  · rintro i e h1i hi ⟨h1, h2⟩
    have hp := h2 (i - 1) (by omega)
    rw [show i - 1 + 1 = i by omega] at hp
    rw [wp_bind, wp_eq hp, wp_bind, wp_eq (hs i hi), Buf.wp_set]
    refine ⟨by omega, h1, fun c hc => ?_⟩
    rw [Buf.get_upd]
    by_cases hci : c = i
    · subst hci
      rw [if_pos rfl, if_pos (by omega), startOf_succ]
    · rw [if_neg hci]; exact h2 c (by omega)

theorem statMembers_spec {cfg : Cfg} (hcfg : cfg.Valid) {n k : Nat} (hk : k ≤ cfg.clabelMax) {labels : Buf Int} (hv : ValidLabels cfg labels n k) {ends : Buf Nat} (hl : ends.len = k)
    (hget : ∀ c, c < k → ends.get c = some (startOf labels n (c + 1))) {store : Buf Nat} (hs : store.len = startOf labels n k) :
    Wp (statMembers cfg n labels ends store) fun r => r.2.len = startOf labels n k ∧ ∀ c, c < k → r.1.get c = some (startOf labels n c) ∧
      Seg r.2 (startOf labels n c) (members labels n c).reverse := by
  unfold statMembers
  refine wp_forLt (fun i (r : Buf Nat × Buf Nat) => r.1.len = k ∧ r.2.len = startOf labels n k ∧ ∀ c, c < k →
      r.1.get c = some (startOf labels n (c + 1) - (members labels i c).length) ∧
      Seg r.2 (startOf labels n (c + 1) - (members labels i c).length) (members labels i c).reverse) (Nat.zero_le _) ⟨hl, hs, fun c hc => ⟨?_, ?_⟩⟩ ?_ ?_
  · rw [hget c hc]; simp [members]
  · intro i x hx; simp [members] at hx
  · rintro i ⟨r, s⟩ - hi ⟨h1, h2, h3⟩
    dsimp only at h1 h2 h3 ⊢
    rcases hv i hi with hna | ⟨c, hc, hlab⟩
    · rw [wp_bind, wp_eq hna, if_neg (by simp), wp_pure]
      refine ⟨h1, h2, fun c hc => ?_⟩
      rw [members_succ, if_neg, List.append_nil]
      · exact h3 c hc
      · rw [hna]
        intro h
        exact na_ne hcfg hk hc (Option.some.inj h).symm
    · have hlen : (members labels i c).length + 1 ≤ (members labels n c).length := by
        have h4 := members_length_mono (b := labels) (c := c) (show i + 1 ≤ n from hi)
        rw [members_succ, if_pos hlab, List.length_append] at h4
        exact h4
      have hst := startOf_succ labels n c
      have hmono := startOf_mono labels n (show c + 1 ≤ k from hc)
      rw [wp_bind, wp_eq hlab, if_pos (na_ne hcfg hk hc), wp_bind, labelIdx_nat, wp_some, wp_bind, wp_eq (h3 c hc).1, if_neg (by omega), wp_bind, Buf.wp_set]
      refine ⟨by omega, ?_⟩
      rw [wp_bind, Buf.wp_set]
      refine ⟨by omega, ?_⟩
      rw [wp_pure]
      refine ⟨h1, h2, fun d hd => ?_⟩
      dsimp only
      by_cases hdc : d = c
      · subst hdc
        rw [members_succ, if_pos hlab, List.length_append, List.reverse_append]
        have heq : startOf labels n (d + 1) - ((members labels i d).length + [i].length) = startOf labels n (d + 1) - (members labels i d).length - 1 := by simp; omega
        rw [heq]
        refine ⟨?_, ?_⟩
        · rw [Buf.get_upd_self _ _ (by omega)]
        · intro j x hx
          cases j with
          | zero =>
            simp at hx
            subst hx
            show (s.upd (startOf labels n (d + 1) - (members labels i d).length - 1) i).get (startOf labels n (d + 1) - (members labels i d).length - 1) = some i
            rw [Buf.get_upd_self _ _ (by omega)]
          | succ j =>
            have hx' : (members labels i d).reverse[j]? = some x := by simpa using hx
            have h5 := (h3 d hd).2 j x hx'
            rw [Buf.get_upd_ne _ _ (by omega), show startOf labels n (d + 1) - (members labels i d).length - 1 + (j + 1) = startOf labels n (d + 1) - (members labels i d).length + j by omega]
            exact h5
      · rw [members_succ, if_neg (by rw [hlab]; simp; omega), List.append_nil]
        refine ⟨?_, ?_⟩
        · rw [Buf.get_upd_ne _ _ hdc]; exact (h3 d hd).1
        · intro j x hx
          have h5 := (h3 d hd).2 j x hx
          have hj : j < (members labels i d).length := by
            have := (List.getElem?_eq_some_iff.1 hx).1
            simpa using this
          have hstd := startOf_succ labels n d
          have hlend := members_length_mono (b := labels) (c := d) (show i ≤ n by omega)
          rw [Buf.get_upd_ne]
          · exact h5
          · rcases Nat.lt_or_gt_of_ne hdc with hlt | hgt
            · have := startOf_mono labels n (show d + 1 ≤ c from hlt)
              omega
            · have := startOf_mono labels n (show c + 1 ≤ d from hgt)
              omega
  · rintro ⟨r, s⟩ ⟨-, h2, h3⟩
    refine ⟨h2, fun c hc => ?_⟩
    have h4 := h3 c hc
    rw [startOf_succ, Nat.add_sub_cancel] at h4
    exact h4

/-! ### Distances of a cluster -/

/-- The loop over the distances of a cluster computes sum, minimum and maximum. -/
theorem distSummary_spec {l : List F} {d : Buf F} (hl : l ≠ []) (h : ∀ (i : Nat) (x : F), l[i]? = some x → d.get i = some x) :
    Wp (distSummary l.length d) fun r => r = (sumOf l, leastOf l, greatestOf l) := by
  obtain ⟨x, xs, rfl⟩ := List.exists_cons_of_ne_nil hl
  unfold distSummary
  rw [wp_bind, wp_eq (h 0 x rfl)]
  refine wp_forLt (fun i (r : F × F × F) => r = (sumOf (x :: xs.take (i - 1)), leastOf (x :: xs.take (i - 1)), greatestOf (x :: xs.take (i - 1)))) (by simp) (by simp [sumOf, leastOf, greatestOf]) ?_ ?_
  · rintro i r h1 hi rfl
    rw [List.length_cons] at hi
    have hx : (x :: xs)[i]? = some xs[i - 1] := by
      rw [List.getElem?_cons, if_neg (by omega), List.getElem?_eq_getElem (by omega)]
    rw [wp_bind, wp_eq (h i _ hx), wp_pure]
    have ht : xs.take (i + 1 - 1) = xs.take (i - 1) ++ [xs[i - 1]] := by
      rw [show i + 1 - 1 = i - 1 + 1 by omega, List.take_add_one, List.getElem?_eq_getElem (by omega)]; rfl
    rw [ht]
    simp only [sumOf, leastOf, greatestOf, List.foldl_append, List.foldl_cons, List.foldl_nil]
    rfl
  · rintro r rfl
    rw [List.length_cons, Nat.add_sub_cancel, List.take_length]

/-- What the second loop does with one cluster. -/
def clusterInto (dist : Nat → Nat → F) (b : Buf Int) (n : Nat) (st : Stats F) (c : Nat) : Stats F :=
  if (members b n c).length < 2 then
    if (members b n c).length = 1 then { st with minDist := FloatOps.zero } else st
  else addCluster (members b n c).length (clusterDists dist b n c).length (sumOf (clusterDists dist b n c)) (leastOf (clusterDists dist b n c)) (greatestOf (clusterDists dist b n c)) st

theorem length_clusterDists (dist : Nat → Nat → F) (b : Buf Int) (n c : Nat) : (clusterDists dist b n c).length = (members b n c).length * ((members b n c).length - 1) / 2 := by
  rw [clusterDists, List.length_map, length_upperPairs, List.length_reverse]

theorem statsStep_spec {cfg : Cfg} {spi : Spi F} {n k : Nat} {dist : Nat → Nat → F} {mayRefuse : Prop} (hm : MatrixOk spi n dist mayRefuse) {ids : StatIds} {b : Buf Int} {sizes ends store : Buf Nat}
    (hs : ∀ c, c < k → sizes.get c = some (members b n c).length) (he : ∀ c, c < k → ends.get c = some (startOf b n c) ∧ Seg store (startOf b n c) (members b n c).reverse)
    (hroom : n * (n - 1) ≤ cfg.sizeMax) {st : Stats F} {d : Buf F} {c : Nat} (hc : c < k) (hd : (clusterDists dist b n c).length ≤ d.len) {w : World}
    (hlive : ∀ i ∈ [ids.sizes, ids.store, ids.ends, ids.scratch], i ∈ w.live) :
    WpM (statsStep cfg spi ids sizes ends store (st, d) c) w fun r w' => w'.fails = w.fails ∧ w'.live = w.live ∧ w'.err = w.err ∧
      match r with
      | .next s => s.1 = clusterInto dist b n st c ∧ s.2.len = d.len
      | .stop _ => ¬ w.NoFail ∨ mayRefuse := by
  simp only [List.mem_cons, List.not_mem_nil, or_false, forall_eq_or_imp, forall_eq] at hlive
  obtain ⟨l1, l2, l3, l4⟩ := hlive
  unfold statsStep
  rw [wpM_bind, wpM_useK]
  refine ⟨by simp [l1, l3], ?_⟩
  unfold statCluster
  rw [wp_bind, wp_eq (hs c hc), wp_bind, wp_eq (he c hc).1, wp_pure]
  dsimp only
  unfold clusterInto
  by_cases h2 : (members b n c).length < 2
  · rw [if_pos h2]
    by_cases h1 : (members b n c).length = 1
    · rw [if_pos h1, wpM_pure]
      refine ⟨rfl, rfl, rfl, ?_, rfl⟩
      dsimp only
      rw [if_pos h2, if_pos h1]
    · rw [if_neg h1, wpM_pure]
      refine ⟨rfl, rfl, rfl, ?_, rfl⟩
      dsimp only
      rw [if_pos h2, if_neg h1]
  · rw [if_neg h2, wpM_bind, touch, wpM_useK]
    refine ⟨by simp [l4], ?_⟩
    rw [wp_some, wpM_bind]
    have hle := members_length_le b n c
    have hlen := length_clusterDists dist b n c
    refine (hm (members b n c).length (some ⟨[ids.store], store.drop (startOf b n c)⟩) (members b n c).reverse d w ?_ (by simp) ?_ (by omega) (by simp [arrIds, l2]) ?_).mono ?_
    · intro i x hx
      show (store.drop (startOf b n c)).get i = some x
      rw [Buf.get_drop']
      exact (he c hc).2 i x hx
    · intro x hx
      exact (mem_members.1 (List.mem_reverse.1 hx)).1
    · rw [clusterDists, List.length_map] at hd; exact hd
    · rintro (_ | d') w1 ⟨f1, e1, v1, h⟩
      · dsimp only
        rw [wpM_pure]
        exact ⟨f1, v1, e1, h⟩
      · dsimp only at h ⊢
        have hmod : (members b n c).length * ((members b n c).length - 1) % (cfg.sizeMax + 1) / 2 = (clusterDists dist b n c).length := by
          rw [hlen, Nat.mod_eq_of_lt]
          have : (members b n c).length * ((members b n c).length - 1) ≤ n * (n - 1) := Nat.mul_le_mul hle (by omega)
          omega
        rw [hmod, wpM_bind, wpM_useK]
        refine ⟨by simp [v1, l4], ?_⟩
        refine (distSummary_spec (l := clusterDists dist b n c) ?_ ?_).mono ?_
        · intro h0
          rw [h0] at hlen
          have : 2 * 1 ≤ (members b n c).length * ((members b n c).length - 1) := Nat.mul_le_mul (by omega) (by omega)
          simp at hlen
          omega
        · intro i x hx
          rw [clusterDists, List.getElem?_map] at hx
          obtain ⟨p, hp, rfl⟩ := Option.map_eq_some_iff.1 hx
          exact h.2 i p hp
        · rintro r rfl
          dsimp only
          rw [wpM_pure]
          refine ⟨f1, v1, e1, ?_, h.1⟩
          dsimp only
          rw [if_neg h2]

/-! ### The whole function -/

/-- The statistics that are computed for valid labels: those of the sizes, and those of the distances if there is a populated cluster. -/
def Computed (dist : Nat → Nat → F) (n k : Nat) (b : Buf Int) (s : Stats F) : Prop :=
  ∃ st, SizesTo n k b k st ∧ s = if st.populated = 0 then st else finishStats ((List.range k).foldl (clusterInto dist b n) st)

/-- The outcome of the function after the checks. -/
def StatsPost (dist : Nat → Nat → F) (n k : Nat) (b : Buf Int) (mayRefuse : Prop) (w : World) (r : ErrorCode × Option (Stats F)) (w' : World) : Prop :=
  w'.live = w.live ∧
    (r.1 = .ok ∧ w'.err = w.err ∧ (∃ s, r.2 = some s ∧ Computed dist n k b s) ∨
     r.2 = none ∧ w'.err.code = r.1 ∧ (r.1 = .noMemory ∧ ¬ w.NoFail ∨ r.1 = .distSearch ∧ (¬ w.NoFail ∨ mayRefuse)))

theorem statsRun_spec {cfg : Cfg} (hcfg : cfg.Valid) {spi : Spi F} {cl : Clustering} {dist : Nat → Nat → F} {mayRefuse : Prop} (hm : MatrixOk spi cl.n dist mayRefuse) {lb : Blk Int} (hlb : cl.label = some lb)
    (hk : 0 < cl.numClusters) (hkm : cl.numClusters ≤ cfg.clabelMax) (hv : ValidLabels cfg lb.buf cl.n cl.numClusters) (hroom : cl.n * (cl.n - 1) ≤ cfg.sizeMax) {st : Stats F}
    (hst : SizesTo cl.n cl.numClusters lb.buf cl.numClusters st) (hp : st.populated ≠ 0)
    {sizes store ends : Blk Nat} {scratch : Blk F} (hs : ∀ c, c < cl.numClusters → sizes.buf.get c = some (members lb.buf cl.n c).length) (hsl : store.buf.len = st.numAssigned) (hel : ends.buf.len = cl.numClusters)
    (hsc : ∀ c, c < cl.numClusters → (clusterDists dist lb.buf cl.n c).length ≤ scratch.buf.len) {w0 w : World} (hf : w.fails = w0.fails) (he : w.err = w0.err)
    (hl : w.live = {scratch.id} + ({ends.id} + ({store.id} + ({sizes.id} + w0.live)))) (hlab : lb.id ∈ w0.live) :
    WpM (statsRun cfg spi cl st sizes store ends scratch) w (StatsPost dist cl.n cl.numClusters lb.buf mayRefuse w0) := by
  unfold statsRun
  rw [wpM_bind, wpM_useK]
  refine ⟨by simp [hl], ?_⟩
  refine (statEnds_spec hk hel hs).mono ?_
  rintro eb ⟨h1, h2⟩
  rw [wpM_bind, wpM_useK]
  refine ⟨by simp [hl, hlb, hlab, ptrIds], ?_⟩
  rw [hlb]
  refine (statMembers_spec (store := store.buf) hcfg hkm hv h1 h2 (by rw [hsl, hst.assigned])).mono ?_
  rintro ⟨eb, sb⟩ ⟨h3, h4⟩
  dsimp only at h3 h4 ⊢
  rw [wpM_bind]
  refine (wpM_foldBM (fun pre (s : Stats F × Buf F) w' => w'.fails = w.fails ∧ w'.live = w.live ∧ w'.err = w.err ∧ s.1 = pre.foldl (clusterInto dist lb.buf cl.n) st ∧ s.2.len = scratch.buf.len)
    (fun _ w' => w'.fails = w.fails ∧ w'.live = w.live ∧ w'.err = w.err ∧ (¬ w.NoFail ∨ mayRefuse)) _ _ _ ⟨rfl, rfl, rfl, rfl, rfl⟩ ?_).mono ?_
  · rintro pre c post ⟨s, d⟩ w1 hsplit ⟨f1, l1, e1, rfl, hd⟩
    dsimp only at hd
    have hc : c < cl.numClusters := by
      have : c ∈ List.range cl.numClusters := by rw [hsplit]; simp
      exact List.mem_range.1 this
    refine (statsStep_spec hm hs h4 hroom hc (by rw [hd]; exact hsc c hc) (by simp [l1, hl])).mono ?_
    rintro (⟨s', d'⟩ | _) w2 ⟨f2, l2, e2, h⟩
    · dsimp only at h ⊢
      refine ⟨f2.trans f1, l2.trans l1, e2.trans e1, ?_, h.2.trans hd⟩
      rw [h.1, List.foldl_append]; rfl
    · dsimp only at h ⊢
      rw [noFail_congr f1] at h
      exact ⟨f2.trans f1, l2.trans l1, e2.trans e1, h⟩
  · rintro (⟨s, d⟩ | _) w1 h
    · dsimp only at h ⊢
      obtain ⟨f1, l1, e1, rfl, -⟩ := h
      rw [wpM_bind]
      refine wpM_freeId ({scratch.id} + ({ends.id} + ({store.id} + w0.live))) (by rw [l1, hl]; abel) fun w2 f2 l2 e2 => ?_
      rw [wpM_bind]
      refine wpM_freeId ({scratch.id} + ({ends.id} + w0.live)) (by rw [l2]; abel) fun w3 f3 l3 e3 => ?_
      rw [wpM_bind]
      refine wpM_freeId ({scratch.id} + w0.live) (by rw [l3]; abel) fun w4 f4 l4 e4 => ?_
      rw [wpM_bind]
      refine wpM_freeId w0.live l4 fun w5 f5 l5 e5 => ?_
      rw [wpM_pure]
      refine ⟨l5, Or.inl ⟨rfl, e5.trans (e4.trans (e3.trans (e2.trans (e1.trans he)))), _, rfl, st, hst, ?_⟩⟩
      rw [if_neg hp]
    · dsimp only at h ⊢
      obtain ⟨f1, l1, e1, hr⟩ := h
      rw [wpM_bind]
      refine wpM_freeId ({scratch.id} + ({ends.id} + ({store.id} + w0.live))) (by rw [l1, hl]; abel) fun w2 f2 l2 e2 => ?_
      rw [wpM_bind]
      refine wpM_freeId ({scratch.id} + ({ends.id} + w0.live)) (by rw [l2]; abel) fun w3 f3 l3 e3 => ?_
      rw [wpM_bind]
      refine wpM_freeId ({scratch.id} + w0.live) (by rw [l3]; abel) fun w4 f4 l4 e4 => ?_
      rw [wpM_bind]
      refine wpM_freeId w0.live l4 fun w5 f5 l5 e5 => ?_
      rw [wpM_bind]
      refine wpM_mkErr fun w6 f6 l6 e6 => ?_
      rw [wpM_pure]
      rw [noFail_congr hf] at hr
      exact ⟨l6.trans l5, Or.inr ⟨rfl, by rw [e6], Or.inr ⟨rfl, hr⟩⟩⟩

theorem SizesTo.scratch {cfg : Cfg} {n k : Nat} {b : Buf Int} {st : Stats F} (h : SizesTo n k b k st) (hroom : n * (n - 1) ≤ cfg.sizeMax) (hroom' : n * (n - 1) < 2 ^ 64) (dist : Nat → Nat → F) (c : Nat) (hc : c < k) :
    (clusterDists dist b n c).length ≤ scratchLen cfg st.maxSize := by
  have hle : (members b n c).length ≤ st.maxSize := by
    by_cases h0 : 1 ≤ (members b n c).length
    · exact h.maxSize.1 c (mem_clustersFrom.2 ⟨hc, h0⟩)
    · omega
  have hmax : st.maxSize ≤ n := by
    by_cases he : clustersFrom b n k 1 = []
    · rw [h.maxSize.2.2 he]; omega
    · obtain ⟨d, -, hd⟩ := h.maxSize.2.1 he
      rw [hd]; exact members_length_le b n d
  rw [length_clusterDists]
  unfold scratchLen u64
  have h1 : st.maxSize * (st.maxSize - 1) ≤ n * (n - 1) := Nat.mul_le_mul hmax (by omega)
  have h2 : (members b n c).length * ((members b n c).length - 1) ≤ st.maxSize * (st.maxSize - 1) := Nat.mul_le_mul hle (by omega)
  rw [Nat.mod_eq_of_lt (show st.maxSize * (st.maxSize - 1) < 2 ^ 64 by omega), Nat.mod_eq_of_lt (by omega)]
  exact Nat.div_le_div_right h2

theorem statsMain_spec {cfg : Cfg} (hcfg : cfg.Valid) {spi : Spi F} {cl : Clustering} {dist : Nat → Nat → F} {mayRefuse : Prop} (hm : MatrixOk spi cl.n dist mayRefuse) {lb : Blk Int} (hlb : cl.label = some lb)
    (hk : 0 < cl.numClusters) (hkm : cl.numClusters ≤ cfg.clabelMax) (hv : ValidLabels cfg lb.buf cl.n cl.numClusters) (hroom : cl.n * (cl.n - 1) ≤ cfg.sizeMax) (hroom' : cl.n * (cl.n - 1) < 2 ^ 64)
    {w : World} (hlab : lb.id ∈ w.live) : WpM (statsMain cfg spi cl) w (StatsPost dist cl.n cl.numClusters lb.buf mayRefuse w) := by
  have hn : cl.n ≤ 2 ^ 64 - 1 := by
    by_contra hcon
    have : 2 ^ 64 * 1 ≤ cl.n * (cl.n - 1) := Nat.mul_le_mul (by omega) (by omega)
    omega
  unfold statsMain
  rw [wpM_bind]
  refine wpM_alloc (fun w1 hn' f1 l1 e1 => ?_) (fun i w1 f1 l1 e1 => ?_)
  · dsimp only
    rw [wpM_bind]
    refine wpM_mkErr fun w2 f2 l2 e2 => ?_
    rw [wpM_pure]
    exact ⟨l2.trans l1, Or.inr ⟨rfl, by rw [e2], Or.inl ⟨rfl, hn'⟩⟩⟩
  dsimp only
  rw [wpM_bind, wpM_useK]
  refine ⟨by simp [hlb, l1, hlab, ptrIds], ?_⟩
  rw [hlb]
  refine (countSizes_spec hcfg hv hkm).mono ?_
  rintro sizes ⟨-, hs⟩
  rw [wpM_bind, wpM_useK]
  refine ⟨by simp [l1], ?_⟩
  refine (sizeStats_spec hn hs).mono fun st hst => ?_
  by_cases hp : st.populated = 0
  · rw [if_pos hp, wpM_bind]
    refine wpM_freeId w.live l1 fun w2 f2 l2 e2 => ?_
    rw [wpM_pure]
    exact ⟨l2, Or.inl ⟨rfl, e2.trans e1, st, rfl, st, hst, by rw [if_pos hp]⟩⟩
  rw [if_neg hp]
  unfold statsArrays
  rw [wpM_bind]
  refine wpM_allocP fun store w2 hstore f2 l2 e2 => ?_
  rw [wpM_bind]
  refine wpM_allocP fun ends w3 hends f3 l3 e3 => ?_
  rw [wpM_bind]
  refine wpM_allocP fun scratch w4 hscratch f4 l4 e4 => ?_
  have f24 : w4.fails = w.fails := f4.trans (f3.trans (f2.trans f1))
  have hlive : w4.live = ptrOwn scratch + (ptrOwn ends + (ptrOwn store + ({i} + w.live))) := by rw [l4, l3, l2, l1]
  have hbad : ¬ w.NoFail → WpM (do
      freeId i
      freePtr store
      freePtr ends
      freePtr scratch
      let e ← mkErr .noMemory "src/utilities.c" 248
      pure (e, (none : Option (Stats F)))) w4 (StatsPost dist cl.n cl.numClusters lb.buf mayRefuse w) := by
    intro hnf
    rw [wpM_bind]
    refine wpM_freeId (ptrOwn scratch + (ptrOwn ends + (ptrOwn store + w.live))) (by rw [hlive]; abel) fun w5 f5 l5 e5 => ?_
    rw [wpM_bind]
    refine wpM_freePtr (ptrOwn scratch + (ptrOwn ends + w.live)) (by rw [l5]; abel) fun w6 f6 l6 e6 => ?_
    rw [wpM_bind]
    refine wpM_freePtr (ptrOwn scratch + w.live) (by rw [l6]; abel) fun w7 f7 l7 e7 => ?_
    rw [wpM_bind]
    refine wpM_freePtr w.live l7 fun w8 f8 l8 e8 => ?_
    rw [wpM_bind]
    refine wpM_mkErr fun w9 f9 l9 e9 => ?_
    rw [wpM_pure]
    exact ⟨l9.trans l8, Or.inr ⟨rfl, by rw [e9], Or.inl ⟨rfl, hnf⟩⟩⟩
  rcases hstore with ⟨rfl, hnf⟩ | ⟨i1, rfl⟩
  · rw [noFail_congr f1] at hnf; exact hbad hnf
  rcases hends with ⟨rfl, hnf⟩ | ⟨i2, rfl⟩
  · rw [noFail_congr (f2.trans f1)] at hnf; exact hbad hnf
  rcases hscratch with ⟨rfl, hnf⟩ | ⟨i3, rfl⟩
  · rw [noFail_congr (f3.trans (f2.trans f1))] at hnf; exact hbad hnf
  exact statsRun_spec (sizes := ⟨i, sizes⟩) hcfg hm hlb hk hkm hv hroom hst hp hs rfl rfl (fun c hc => hst.scratch hroom hroom' dist c hc) f24 (e4.trans (e3.trans (e2.trans e1))) hlive hlab

end Scc
