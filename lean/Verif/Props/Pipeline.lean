/-
Properties C48 to C52: what the functions of the library do with the results of one another.
-/
import Verif.Props.Batches
import Verif.Props.Check
import Verif.Props.Hierarchical
import Verif.Props.Stats

set_option linter.unusedVariables false
set_option linter.unusedSimpArgs false

namespace Scc

variable {F : Type} [FloatOps F]

/-- The seed method is one of the digraph methods, or batches of a size that the code can handle. -/
def MethodOk (o : Options F) (n : Nat) : Prop := (∃ m, o.seedMethod = .method m) ∨ o.seedMethod = .batches ∧ BatchFits o n

theorem sized_run {cfg : Cfg} {spi : Spi F} {A : Criterion F} {dist : Nat → Nat → F} {mayRefuse : Prop} {o : Options F} {ob : ClObj}
    (hs : SpiOk spi ob.cl.n A dist mayRefuse) {P : List Nat} {lab c : Nat → Nat} {w : World} (hc : CallOk cfg o ob P lab c w) (hm : MethodOk o ob.cl.n) :
    OnSuccess cfg spi o ob w fun k b => 1 ≤ k ∧ ValidLabels cfg b ob.cl.n k ∧ ∀ i, i < k → o.sizeConstraint ≤ (members b ob.cl.n i).length := by
  rcases hm with ⟨m, hm⟩ | ⟨hm, hf⟩
  · exact C01_size_constraint hs hc hm
  · obtain ⟨e, p, w', h1, h2⟩ := C12_batch_size_constraint hs hc hm hf
    refine ⟨e, p, w', h1, fun he => ?_⟩
    obtain ⟨h3, cl, b, h4, h5, h6, h7, h8, h9, h10, h11⟩ := h2 he
    exact ⟨h3, cl, b, h4, h5, h6, h7, h8, h9, h10, fun i hi => (h11 i hi).1⟩

/-- The points with a label below `k` are the members of the first `k` clusters. -/
theorem sum_members (b : Buf Int) (n k : Nat) :
    ((List.range k).map fun i => (members b n i).length).sum = ((List.range n).filter fun v => decide (∃ c, c < k ∧ b.get v = some (c : Int))).length := by
  induction k with
  | zero => simp
  | succ k ih =>
    rw [List.range_succ, List.map_append, List.sum_append, ih]
    simp only [List.map_cons, List.map_nil, List.sum_cons, List.sum_nil, Nat.add_zero, members]
    rw [← List.countP_eq_length_filter, ← List.countP_eq_length_filter, ← List.countP_eq_length_filter]
    generalize List.range n = l
    induction l with
    | nil => rfl
    | cons v l ihl =>
      rw [List.countP_cons, List.countP_cons, List.countP_cons, ← ihl]
      have e1 : (∃ c, c < k + 1 ∧ b.get v = some (c : Int)) ↔ (∃ c, c < k ∧ b.get v = some (c : Int)) ∨ b.get v = some (k : Int) := by
        constructor
        · rintro ⟨c, h1, h2⟩
          rcases Nat.lt_succ_iff_lt_or_eq.1 h1 with h | rfl
          · exact Or.inl ⟨c, h, h2⟩
          · exact Or.inr h2
        · rintro (⟨c, h1, h2⟩ | h)
          · exact ⟨c, by omega, h2⟩
          · exact ⟨k, by omega, h⟩
      have e2 : ¬ ((∃ c, c < k ∧ b.get v = some (c : Int)) ∧ b.get v = some (k : Int)) := by
        rintro ⟨⟨c, h1, h2⟩, h3⟩
        rw [h2] at h3
        simp at h3
        omega
      by_cases h1 : ∃ c, c < k ∧ b.get v = some (c : Int)
      · have h2 : ¬ b.get v = some (k : Int) := fun h => e2 ⟨h1, h⟩
        have h3 := e1.2 (Or.inl h1)
        simp only [h1, h2, h3, decide_true, decide_false, ↓reduceIte]
        simp
        omega
      · by_cases h2 : b.get v = some (k : Int)
        · have h3 := e1.2 (Or.inr h2)
          simp only [h1, h2, h3, decide_true, decide_false, ↓reduceIte]
          simp
          omega
        · have h3 : ¬ _ := fun h => (e1.1 h).elim h1 h2
          simp only [h1, h2, h3, decide_false]
          simp

theorem OnSuccess.mono {cfg : Cfg} {spi : Spi F} {o : Options F} {ob : ClObj} {w : World} {Q Q' : Nat → Buf Int → Prop} (h : OnSuccess cfg spi o ob w Q) (hq : ∀ k b, Q k b → Q' k b) :
    OnSuccess cfg spi o ob w Q' := by
  obtain ⟨e, p, w', h1, h2⟩ := h
  refine ⟨e, p, w', h1, fun he => ?_⟩
  obtain ⟨h3, cl, b, h4, h5, h6, h7, h8, h9⟩ := h2 he
  exact ⟨h3, cl, b, h4, h5, h6, h7, h8, hq _ _ h9⟩

theorem HiOnSuccess.mono {cfg : Cfg} {hi : HiEnv F} {spi : Spi F} {S : Nat} {batch : Bool} {ob : ClObj} {w : World} {Q Q' : Nat → Buf Int → Prop} (h : HiOnSuccess cfg hi spi S batch ob w Q)
    (hq : ∀ k b, Q k b → Q' k b) : HiOnSuccess cfg hi spi S batch ob w Q' := by
  obtain ⟨e, p, w', h1, h2⟩ := h
  refine ⟨e, p, w', h1, fun he => ?_⟩
  obtain ⟨h3, cl, b, h4, h5, h6, h7, h8, h9⟩ := h2 he
  exact ⟨h3, cl, b, h4, h5, h6, h7, h8, hq _ _ h9⟩

theorem sum_ge {f : Nat → Nat} {S k : Nat} (h : ∀ i, i < k → S ≤ f i) : k * S ≤ ((List.range k).map f).sum := by
  induction k with
  | zero => simp
  | succ k ih =>
    rw [List.range_succ, List.map_append, List.sum_append, Nat.succ_mul]
    exact Nat.add_le_add (ih fun i hi => h i (by omega)) (by simpa using h k (by omega))

theorem sum_eq {f : Nat → Nat} {S k : Nat} (h : ∀ i, i < k → f i = S) : ((List.range k).map f).sum = k * S := by
  induction k with
  | zero => simp
  | succ k ih =>
    rw [List.range_succ, List.map_append, List.sum_append, Nat.succ_mul, ih fun i hi => h i (by omega)]
    simp [h k (by omega)]

/-! ### C48: the number of clusters -/

/-- C48. A successful call makes at most `n / S` clusters. -/
theorem C48_cluster_count {cfg : Cfg} {spi : Spi F} {A : Criterion F} {dist : Nat → Nat → F} {mayRefuse : Prop} {o : Options F} {ob : ClObj}
    (hs : SpiOk spi ob.cl.n A dist mayRefuse) {P : List Nat} {lab c : Nat → Nat} {w : World} (hc : CallOk cfg o ob P lab c w) (hm : MethodOk o ob.cl.n) :
    OnSuccess cfg spi o ob w fun k _ => k * o.sizeConstraint ≤ ob.cl.n := by
  refine (sized_run hs hc hm).mono fun k b ⟨_, _, h⟩ => (sum_ge h).trans ?_
  rw [sum_members]
  exact (List.length_filter_le _ _).trans (by simp)

/-- C48, when points that no seed captures are ignored and there are no types: the number of clusters is the number of points with a cluster, divided by `S`. -/
theorem C48_ignore_count {cfg : Cfg} {spi : Spi F} {A : Criterion F} {dist : Nat → Nat → F} {mayRefuse : Prop} {o : Options F} {ob : ClObj}
    (hs : SpiOk spi ob.cl.n A dist mayRefuse) {P : List Nat} {lab c : Nat → Nat} {w : World} (hc : CallOk cfg o ob P lab c w) (hm : MethodOk o ob.cl.n)
    (h1 : o.primaryMethod = .ignore) (h2 : o.secondaryMethod = .ignore) (h3 : o.numTypes < 2) :
    OnSuccess cfg spi o ob w fun k b => k * o.sizeConstraint = ((List.range ob.cl.n).filter fun v => decide (∃ c, c < k ∧ b.get v = some (c : Int))).length := by
  have : OnSuccess cfg spi o ob w fun k b => ∀ i, i < k → (members b ob.cl.n i).length = o.sizeConstraint := by
    rcases hm with ⟨m, hm⟩ | ⟨hm, hf⟩
    · exact C10_ignore_exact hs hc hm h1 h2 h3
    · exact (C12_batch_size_constraint hs hc hm hf).mono fun k b h i hi => (h.2.2 i hi).2 h1
  exact this.mono fun k b h => by rw [← sum_members, sum_eq h]

/-! ### C49: hierarchical clustering after size-constrained clustering -/

theorem room_of_valid {cfg : Cfg} {b : Buf Int} {n k : Nat} (h : ValidLabels cfg b n k) : n ≤ b.len := by
  by_contra hn
  obtain h | ⟨c, -, h⟩ := h (n - 1) (by omega)
  · have := Buf.lt_of_get h; omega
  · have := Buf.lt_of_get h; omega

/-- The preconditions of the second call hold after the first one. -/
theorem hiCall_after {cfg : Cfg} (hcfg : cfg.Valid) {id n k S : Nat} {cl : Clustering} {b : Blk Int} {w : World} (hn : cl.n = n) (hk : cl.numClusters = k) (hb : cl.label = some b)
    (hl : {id} + {b.id} ≤ w.live) (hv : ValidLabels cfg b.buf n k) (h1 : 2 * S < 2 ^ 32) (h2 : 2 * n ≤ cfg.sizeMax) (h3 : k + 1000 < 2 ^ 64) (hf : FirstFits b.buf n k S) :
    HiCallOk cfg S ⟨id, cl⟩ w := by
  subst hn hk
  refine ⟨hcfg, by rw [hb]; exact hl, ?_, h1, h2, h3, ?_⟩
  · intro lb h
    rw [hb] at h; cases h
    exact room_of_valid hv
  · intro _ lb h
    rw [hb] at h; cases h
    exact ⟨hv, hf⟩

/-- C49, without the inputs for which it is false (see `C49_fails`). A clustering that a successful call of `scc_sc_clustering` with size constraint `S` made can be refined by `scc_hierarchical_clustering` with a size constraint of at most `S`: if
that succeeds, the new clusters are parts of the old ones, the same points have a cluster, and each has at least `S'` and fewer than `2 * S'` members. As for C16 and C17, clusters are required
not to have `2 * S'` coincident members, and the first cluster not to be the only largest one. -/
theorem C49_refine_partial {cfg : Cfg} {spi : Spi F} {A : Criterion F} {dist : Nat → Nat → F} {mayRefuse : Prop} {o : Options F} {ob : ClObj}
    (hs : SpiOk spi ob.cl.n A dist mayRefuse) {P : List Nat} {lab c : Nat → Nat} {w : World} (hc : CallOk cfg o ob P lab c w) (hm : MethodOk o ob.cl.n)
    {hi : HiEnv F} (hhi : hi.Ok) (hd : DistLaws ob.cl.n dist) (hs' : MetricOk spi ob.cl.n dist mayRefuse) (batch : Bool) {S' : Nat} (hS : S' ≤ o.sizeConstraint)
    (h1 : 2 * S' < 2 ^ 32) (h2 : 2 * ob.cl.n ≤ cfg.sizeMax) (h3 : ob.cl.n + 1000 < 2 ^ 64) :
    ∃ e p w', scClustering cfg spi o (some ob) w = some ((e, p), w') ∧ (e = .ok → ∃ cl b, p = some ⟨ob.id, cl⟩ ∧ cl.label = some b ∧
      (FirstFits b.buf ob.cl.n cl.numClusters S' → (∀ i, i < cl.numClusters → Spread S' dist (members b.buf ob.cl.n i)) →
        HiOnSuccess cfg hi spi S' batch ⟨ob.id, cl⟩ w' fun k' b' => HiRefines cfg S' ob.cl.n cl.numClusters b.buf k' b' ∧
          ∀ i, i < k' → S' ≤ (members b' ob.cl.n i).length ∧ (members b' ob.cl.n i).length < 2 * S')) := by
  obtain ⟨e, p, w', g1, g2⟩ := sized_run hs hc hm
  refine ⟨e, p, w', g1, fun he => ?_⟩
  obtain ⟨g3, cl, b, rfl, g4, g5, g6, g7, g8, g9, g10⟩ := g2 he
  refine ⟨cl, b, rfl, g5, fun hf hsp => ?_⟩
  by_cases hS0 : 1 ≤ o.sizeConstraint
  · have hk := clusters_le hS0 g10
    have hc2 := hiCall_after (S := S') hc.config g4 rfl g5 g6 g9 h1 h2 (by omega) hf
    have := C16_partial (ob := ⟨ob.id, cl⟩) hhi (by rw [g4]; exact hd) (by rw [g4]; exact hs') batch hc2 (by show cl.numClusters ≠ 0; omega) (by show ∀ c, c < cl.numClusters → Spread S' dist (members (ptrBuf cl.label) cl.n c); rw [g4, g5]; exact hsp)
    refine this.mono fun k' b' h => ?_
    dsimp only at h
    rw [g4, g5] at h
    refine ⟨h, fun i hi => ?_⟩
    obtain ⟨-, h4, h5 | ⟨c, h5, h6⟩⟩ := h.sizes i hi
    · exact ⟨h5, h4⟩
    · exact ⟨by rw [h6]; exact hS.trans (g10 c h5), h4⟩
  · exact absurd (C32_ok_valid (Multiset.mem_of_le hc.live (by simp)) hc.arrays (he ▸ g1)).size_two (by omega)

/-! ### C50: the check accepts hierarchical clusterings -/

/-- C50. The check accepts the result of a successful call of `scc_hierarchical_clustering` on an empty clustering, for options with the same size constraint and without types. (The data have no
`2 * S` coincident points, as for C15.) The check itself may lack memory. -/
theorem C50_check_hierarchical {cfg : Cfg} {dist : Nat → Nat → F} {hi : HiEnv F} (hhi : hi.Ok) {spi : Spi F} {mayRefuse : Prop} {o : Options F} {ob : ClObj} (hd : DistLaws ob.cl.n dist)
    (hs : MetricOk spi ob.cl.n dist mayRefuse) (batch : Bool) {w : World} (hc : HiCallOk cfg o.sizeConstraint ob w) (he : ob.cl.numClusters = 0)
    (hsp : Spread o.sizeConstraint dist (List.range ob.cl.n)) {P : List Nat} {lab c : Nat → Nat} (ha : OptionArrays ob.cl.n o P lab c) (hv : ValidOptions o ob.cl.n P) (ht : o.numTypes < 2) :
    ∃ e p w', hierarchical cfg hi spi o.sizeConstraint batch (some ob) w = some ((e, p), w') ∧ (e = .ok → ∃ e2 ok w2, checkClustering cfg p o true w' = some ((e2, some ok), w2) ∧
      (e2 = .ok ∧ ok = true ∨ e2 = .noMemory ∧ ¬ w.NoFail)) := by
  obtain ⟨e, p, w', g1, g2⟩ := C15_partial hhi hd hs batch hc he hsp
  refine ⟨e, p, w', g1, fun he => ?_⟩
  obtain ⟨g3, cl, b, rfl, g4, g5, g6, g7, g8, g9⟩ := g2 he
  have hn : 0 < ob.cl.n := by have := hv.size_two; have := hv.size_le; omega
  have hk : 0 < cl.numClusters := by
    obtain ⟨c, h, -⟩ := g8 0 hn
    omega
  have hval : ValidLabels cfg b.buf ob.cl.n cl.numClusters := fun v hv => Or.inr (g8 v hv)
  have hco : CheckOk cfg o ⟨ob.id, cl⟩ P lab c w' := by
    refine ⟨hc.config, by rw [g5]; exact g6, ?_, by rw [g4]; exact ha, fun h => by omega⟩
    intro _ lb hlb v hv
    dsimp only at hlb hv
    rw [g5] at hlb; cases hlb
    rw [g4] at hv
    obtain ⟨c, -, h⟩ := g8 v hv
    exact ⟨_, h⟩
  obtain ⟨e2, ok, w2, lb, f1, f2, -, ⟨f3, f4⟩ | ⟨f3, -, f5⟩⟩ := C18_check_exact hco g7 hk (by rw [g4]; exact hv)
  · refine ⟨e2, ok, w2, f1, Or.inl ⟨f3, f4.2 ?_⟩⟩
    dsimp only at f2
    rw [g5] at f2; cases f2
    dsimp only
    rw [g4]
    refine ⟨hval, fun _ v hvP hun => ?_, fun i hi => (g9 i hi).1, fun h => by omega⟩
    obtain ⟨c, h1, h2⟩ := g8 v (ha.range v hvP)
    unfold Unassigned at hun
    rw [hun] at h2
    have h3 := (isInitialized_iff.1 g7).2.2.2.1
    have := hc.config.na_out
    simp only [Option.some.injEq] at h2
    omega
  · exact ⟨e2, ok, w2, f1, Or.inr ⟨f3, by rwa [noFail_congr g3] at f5⟩⟩

/-! ### C51: small clusters stay -/

/-- Two label arrays of `n` points describe the same clusters, up to their numbers. -/
def SamePartition (cfg : Cfg) (n : Nat) (b b' : Buf Int) : Prop :=
  (∀ v, v < n → (Unassigned cfg b v ↔ Unassigned cfg b' v)) ∧ ∀ u v, u < n → v < n → (b.get u = b.get v ↔ b'.get u = b'.get v)

/-- C51. If all clusters have fewer than `2 * S` members and none is empty, a successful call of `scc_hierarchical_clustering` changes nothing but the numbers of the clusters. -/
theorem C51_small_clusters_stay {cfg : Cfg} {dist : Nat → Nat → F} {hi : HiEnv F} (hhi : hi.Ok) {spi : Spi F} {mayRefuse : Prop} {S : Nat} {ob : ClObj} (hd : DistLaws ob.cl.n dist)
    (hs : MetricOk spi ob.cl.n dist mayRefuse) (batch : Bool) {w : World} (hc : HiCallOk cfg S ob w) (hne : ob.cl.numClusters ≠ 0)
    (hsm : ∀ i, i < ob.cl.numClusters → 0 < (members (ptrBuf ob.cl.label) ob.cl.n i).length ∧ (members (ptrBuf ob.cl.label) ob.cl.n i).length < 2 * S) :
    HiOnSuccess cfg hi spi S batch ob w fun k b => k = ob.cl.numClusters ∧ SamePartition cfg ob.cl.n (ptrBuf ob.cl.label) b := by
  refine hiOnSuccess hhi hd hs batch hc fun labels0 l k done hacc hold h => ?_
  unfold startClusters at h
  rw [if_neg hne] at h
  have hinit := isInitialized_iff.1 hacc.initialized
  obtain ⟨lb, hlb⟩ := Option.ne_none_iff_exists'.1 (hinit.2.2.2.2 (by omega))
  have := hold lb hlb
  subst this
  have hval := (hc.labels hne lb hlb).1
  rw [hlb] at h hsm ⊢
  have hr := h.refines hc.config hinit.2.2.2.1 hval fun c hcl x hx => lt_of_le_of_lt (List.length_filter_le _ _) (hsm c hcl).2
  change (∀ i, i < ob.cl.numClusters → 0 < (members lb.buf ob.cl.n i).length ∧ (members lb.buf ob.cl.n i).length < 2 * S) at hsm
  change HiRefines cfg S ob.cl.n ob.cl.numClusters lb.buf k l at hr
  change k = ob.cl.numClusters ∧ SamePartition cfg ob.cl.n lb.buf l
  -- an old cluster is a new one
  have hkept : ∀ c, c < ob.cl.numClusters → ∃ c', c' < k ∧ ∀ v, v < ob.cl.n → (l.get v = some (c' : Int) ↔ lb.buf.get v = some (c : Int)) := by
    intro c hcl
    obtain ⟨c', h1, h2⟩ := hr.kept c hcl (List.length_pos_iff.1 (hsm c hcl).1) (hsm c hcl).2
    refine ⟨c', h1, fun v hv => ?_⟩
    have : v ∈ members l ob.cl.n c' ↔ v ∈ members lb.buf ob.cl.n c := by rw [h2]
    rw [mem_members, mem_members] at this
    simpa [hv] using this
  -- a new cluster is an old one
  have hnew : ∀ c', c' < k → ∃ c, c < ob.cl.numClusters ∧ ∀ v, v < ob.cl.n → (l.get v = some (c' : Int) ↔ lb.buf.get v = some (c : Int)) := by
    intro c' hc'
    obtain ⟨v, hv⟩ := List.exists_mem_of_length_pos (hr.sizes c' hc').1
    obtain ⟨h1, h2⟩ := mem_members.1 hv
    obtain ⟨c, h3, h4, -⟩ := hr.finer v v c' h1 h1 hc' h2 h2
    obtain ⟨c2, h5, h6⟩ := hkept c h3
    have h7 := (h6 v h1).2 h4
    rw [h2] at h7
    have h8 : c' = c2 := by simpa using h7
    rw [h8]
    exact ⟨c, h3, h6⟩
  have hcount : ∀ {k1 k2 : Nat} {b1 b2 : Buf Int}, (∀ c, c < k1 → ∃ v, v < ob.cl.n ∧ b1.get v = some (c : Int)) →
      (∀ c, c < k1 → ∃ c', c' < k2 ∧ ∀ v, v < ob.cl.n → (b2.get v = some (c' : Int) ↔ b1.get v = some (c : Int))) → k1 ≤ k2 := by
    intro k1 k2 b1 b2 h1 h2
    have : ∀ i : Fin k1, ∃ j : Fin k2, ∀ v, v < ob.cl.n → (b2.get v = some ((j : Nat) : Int) ↔ b1.get v = some ((i : Nat) : Int)) := fun i => by
      obtain ⟨c', h3, h4⟩ := h2 i i.2
      exact ⟨⟨c', h3⟩, h4⟩
    choose f hf using this
    have hinj : Function.Injective f := by
      intro i j hij
      obtain ⟨v, hv1, hv2⟩ := h1 i i.2
      have h5 := (hf i v hv1).2 hv2
      rw [hij] at h5
      have h6 := (hf j v hv1).1 h5
      rw [hv2] at h6
      exact Fin.ext (by simpa using h6)
    simpa using Fintype.card_le_of_injective f hinj
  refine ⟨Nat.le_antisymm (hcount (b1 := l) (b2 := lb.buf) ?_ ?_) (hcount (b1 := lb.buf) (b2 := l) ?_ hkept), fun v hv => (hr.unassigned v hv).symm, fun u v hu hv => ?_⟩
  · intro c hcl
    obtain ⟨v, hv⟩ := List.exists_mem_of_length_pos (hr.sizes c hcl).1
    exact ⟨v, mem_members.1 hv⟩
  · intro c hcl
    obtain ⟨c', h1, h2⟩ := hnew c hcl
    exact ⟨c', h1, fun v hv => (h2 v hv).symm⟩
  · intro c hcl
    obtain ⟨v, hv⟩ := List.exists_mem_of_length_pos (hsm c hcl).1
    exact ⟨v, mem_members.1 hv⟩
  · rcases hval u hu with h1 | ⟨c, hcl, h1⟩
    · have h2 := (hr.unassigned u hu).2 h1
      unfold Unassigned at h1 h2
      rw [h1, h2]
      exact ⟨fun h => ((hr.unassigned v hv).2 h.symm).symm, fun h => ((hr.unassigned v hv).1 h.symm).symm⟩
    · obtain ⟨c', -, h2⟩ := hkept c hcl
      rw [h1, (h2 u hu).2 h1]
      exact ⟨fun h => ((h2 v hv).2 h.symm).symm, fun h => ((h2 v hv).1 h.symm).symm⟩

/-- C51: a second call with the same size constraint changes nothing but the numbers of the clusters. -/
theorem C51_twice {cfg : Cfg} {dist : Nat → Nat → F} {hi : HiEnv F} (hhi : hi.Ok) {spi : Spi F} {mayRefuse : Prop} {S : Nat} {ob : ClObj} (hd : DistLaws ob.cl.n dist)
    (hs : MetricOk spi ob.cl.n dist mayRefuse) (batch batch' : Bool) {w : World} (hc : HiCallOk cfg S ob w) (he : ob.cl.numClusters = 0) (hsp : Spread S dist (List.range ob.cl.n))
    (hn : ob.cl.n + 1000 < 2 ^ 64) :
    ∃ e p w', hierarchical cfg hi spi S batch (some ob) w = some ((e, p), w') ∧ (e = .ok → ∃ cl b, p = some ⟨ob.id, cl⟩ ∧ cl.label = some b ∧
      HiOnSuccess cfg hi spi S batch' ⟨ob.id, cl⟩ w' fun k' b' => k' = cl.numClusters ∧ SamePartition cfg ob.cl.n b.buf b') := by
  obtain ⟨e, p, w', g1, g2⟩ := C15_partial hhi hd hs batch hc he hsp
  refine ⟨e, p, w', g1, fun he => ?_⟩
  obtain ⟨g3, cl, b, rfl, g4, g5, g6, g7, g8, g9⟩ := g2 he
  refine ⟨cl, b, rfl, g5, ?_⟩
  have hk0 : cl.numClusters ≠ 0 := by
    have hn0 := (isInitialized_iff.1 g7).2.1
    rw [g4] at hn0
    obtain ⟨c, h, -⟩ := g8 0 (by omega)
    omega
  have hS0 : 1 ≤ S := by have := g9 0 (by omega); omega
  have hk := clusters_le hS0 fun i hi => (g9 i hi).1
  have hc2 := hiCall_after (S := S) hc.config g4 rfl g5 g6 (fun v hv => Or.inr (g8 v hv)) hc.twice hc.points (by omega) (Or.inl (g9 0 (by omega)).2)
  have := C51_small_clusters_stay (ob := ⟨ob.id, cl⟩) hhi (by rw [g4]; exact hd) (by rw [g4]; exact hs) batch' hc2 hk0 (by
    show ∀ i, i < cl.numClusters → 0 < (members (ptrBuf cl.label) cl.n i).length ∧ (members (ptrBuf cl.label) cl.n i).length < 2 * S
    rw [g4, g5]
    exact fun i hi => ⟨lt_of_lt_of_le hS0 (g9 i hi).1, (g9 i hi).2⟩)
  refine this.mono fun k' b' h => ?_
  dsimp only at h
  rw [g4, g5] at h
  exact h

theorem accepts_of_ok {cfg : Cfg} {spi : Spi F} {o : Options F} {ob : ClObj} {P : List Nat} {lab c : Nat → Nat} {w w' : World} {p : Option ClObj} (hl : ob.id ∈ w.live)
    (ha : OptionArrays ob.cl.n o P lab c) (h : scClustering cfg spi o (some ob) w = some ((.ok, p), w')) : Accepts cfg spi.valid spi.numPoints o ob.cl P := by
  by_contra ho
  have h' : WpM (scClustering cfg spi o (some ob)) w fun r w' => RejectPost cfg spi o ob P w r w' :=
    scClustering_checks hl ha (fun r w' h => h) fun h => absurd h ho
  obtain ⟨r, w'', h1, h2⟩ := h'
  rw [h] at h1
  cases h1
  exact h2.ne_ok rfl

/-! ### C52: statistics after clustering -/

/-- C52. After a successful call of `scc_sc_clustering`, the statistics (if they can be computed) report as many clusters as were made, all of them populated, and a smallest cluster that meets the size
constraint. -/
theorem C52_stats {cfg : Cfg} {spi : Spi F} {A : Criterion F} {dist : Nat → Nat → F} {mayRefuse : Prop} {o : Options F} {ob : ClObj}
    (hs : SpiOk spi ob.cl.n A dist mayRefuse) {P : List Nat} {lab c : Nat → Nat} {w : World} (hc : CallOk cfg o ob P lab c w) (hm : MethodOk o ob.cl.n)
    (hmat : MatrixOk spi ob.cl.n dist mayRefuse) (hroom : ob.cl.n * (ob.cl.n - 1) ≤ cfg.sizeMax ∧ ob.cl.n * (ob.cl.n - 1) < 2 ^ 64) :
    ∃ e p w', scClustering cfg spi o (some ob) w = some ((e, p), w') ∧ (e = .ok → ∃ cl b, p = some ⟨ob.id, cl⟩ ∧ cl.label = some b ∧
      ∃ e2 s w2, getStats cfg spi p true w' = some ((e2, some s), w2) ∧
        (e2 = .ok ∧ s.numPoints = ob.cl.n ∧ s.numClusters = cl.numClusters ∧ s.populated = cl.numClusters ∧ o.sizeConstraint ≤ s.minSize ∧ s.minSize ≤ s.maxSize ∧
          s.numAssigned = ((List.range ob.cl.n).filter fun v => decide (b.buf.get v ≠ some cfg.na)).length ∨
         e2 = .noMemory ∧ ¬ w.NoFail ∨ e2 = .distSearch ∧ (¬ w.NoFail ∨ mayRefuse))) := by
  obtain ⟨e, p, w', g1, g2⟩ := sized_run hs hc hm
  refine ⟨e, p, w', g1, fun he => ?_⟩
  obtain ⟨g3, cl, b, rfl, g4, g5, g6, g7, g8, g9, g10⟩ := g2 he
  refine ⟨cl, b, rfl, g5, ?_⟩
  subst he
  have hacc := accepts_of_ok (Multiset.mem_of_le hc.live (by simp)) hc.arrays g1
  have hS : 1 ≤ o.sizeConstraint := by have := hacc.options.size_two; omega
  have hso : StatsOk cfg ⟨ob.id, cl⟩ w' := by
    refine ⟨hc.config, by rw [g5]; exact g6, ?_, by rw [g4]; exact hroom⟩
    intro _ lb h
    dsimp only at h
    rw [g5] at h; cases h
    dsimp only
    rw [g4]; exact g9
  obtain ⟨e2, s, w2, lb, f1, f2, f3, f4⟩ := C20_stats (ob := ⟨ob.id, cl⟩) (by rw [g4]; exact hmat) hso g7 g8 hacc.valid (by rw [g4]; exact hacc.points)
  dsimp only at f2 f4
  rw [g5] at f2; cases f2
  refine ⟨e2, s, w2, f1, ?_⟩
  rcases f4 with ⟨f4, -, f5, -⟩ | ⟨-, -, f4⟩
  · refine Or.inl ⟨f4, ?_⟩
    rw [g4] at f5
    have hall : clustersFrom b.buf ob.cl.n cl.numClusters 1 = List.range cl.numClusters := by
      unfold clustersFrom
      rw [List.filter_eq_self]
      intro i hi
      have := g10 i (List.mem_range.1 hi)
      simp only [decide_eq_true_eq]
      omega
    have hne : clustersFrom b.buf ob.cl.n cl.numClusters 1 ≠ [] := by
      rw [hall]; simp; omega
    have hpop := f5.populated
    rw [hall, List.length_range] at hpop
    obtain ⟨i, hi, h6⟩ := f5.minSize.2 hne
    have h7 := f5.maxSize.1 i hi
    rw [hall] at hi
    exact ⟨f5.points, f5.clusters, hpop, by rw [h6]; exact g10 i (List.mem_range.1 hi), by rw [h6]; exact h7, f5.assigned⟩
  · rw [noFail_congr g3] at f4
    exact Or.inr f4

/-! ### Examples -/

example : OnSuccess sampleCfg (builtinSpi (some lineData)) (lineOpts .anyNeighbor .useSeedRadius 0) lineObj (sampleWorld [5]) (fun k _ => k * 2 ≤ 6) :=
  C48_cluster_count lineSpi_ok (line_call _ _ _) (Or.inl ⟨.lexical, rfl⟩)

example : OnSuccess sampleCfg (builtinSpi (some lineData)) (batchOpts .ignore 4) lineObj (sampleWorld [5])
    (fun k b => k * 2 = ((List.range 6).filter fun v => decide (∃ c, c < k ∧ b.get v = some (c : Int))).length) :=
  C48_ignore_count lineSpi_ok (batch_call _ _) (Or.inr ⟨rfl, batch_fits _ _⟩) rfl rfl (by decide)

/-- Options for clusters of at least four of the nine points. -/
def refineOpts (um : UnassignedMethod) : Options Int := { (defaultOptions : Options Int) with sizeConstraint := 4, primaryMethod := um }

theorem refineOpts_call (um : UnassignedMethod) : CallOk sampleCfg (refineOpts um) (hiObj 9 0 none) (List.range 9) (fun _ => 0) (fun _ => 0) (sampleWorld [5]) where
  config := sampleCfg_valid
  live := by simp [hiObj, sampleWorld, ptrOwn]
  room := nofun
  arrays := ⟨fun _ => rfl, nofun, fun x hx => List.mem_range.1 hx, nofun, nofun⟩
  limits := fun _ => ⟨by show 9 * 4 ≤ 2 ^ 64 - 1; decide, fun h => absurd h (show ¬ 2 ≤ 0 by decide)⟩
  unchecked := fun _ => rfl

def nineSpi_ok : SpiOk (builtinSpi (some nineData)) 9 (fun set k radius q a => a = nnAnswer (nineData.sqd q) set k radius) nineData.dist False := builtinSpi_ok nineData nineData_complete

def nineMetric : MetricOk (builtinSpi (some nineData)) 9 nineData.dist False := builtinMetric (intMetric nineData_complete)

/-- A call of `scc_sc_clustering` with size constraint 4 for the nine points, and a call of `scc_hierarchical_clustering` with size constraint 2 for the result. -/
def twoCalls (um : UnassignedMethod) : Option (ErrorCode × Nat × List (Option Int)) :=
  (scClustering sampleCfg (builtinSpi (some nineData)) (refineOpts um) (some (hiObj 9 0 none)) (sampleWorld [5])).bind fun r =>
    hiSummary (hierarchical sampleCfg sampleEnv (builtinSpi (some nineData)) 2 false r.1.2 r.2)

example := C49_refine_partial (ob := hiObj 9 0 none) nineSpi_ok (refineOpts_call .ignore) (Or.inl ⟨.lexical, rfl⟩) sampleEnv_ok (intMetric nineData_complete).laws nineMetric false (S' := 2) (by decide)
  (by decide) (by decide) (by decide)

/-- When remaining points are ignored the first call makes two clusters of four points, and the second call makes four clusters of these; the last condition of the theorem holds. -/
example : hiSummary (scClustering sampleCfg (builtinSpi (some nineData)) (refineOpts .ignore) (some (hiObj 9 0 none)) (sampleWorld [5])) =
      some (.ok, 2, [some 0, some 0, some 0, some 0, some (-2147483648), some 1, some 1, some 1, some 1]) ∧
    twoCalls .ignore = some (.ok, 4, [some 2, some 2, some 3, some 3, some (-2147483648), some 0, some 0, some 1, some 1]) ∧
    FirstFits (Buf.ofList [0, 0, 0, 0, -2147483648, 1, 1, 1, 1]) 9 2 2 ∧
    ∀ i, i < 2 → Spread 2 nineData.dist (members (Buf.ofList [0, 0, 0, 0, -2147483648, 1, 1, 1, 1]) 9 i) :=
  ⟨by decide +kernel, by decide +kernel, Or.inr ⟨1, by decide, by decide, by decide⟩, by unfold Spread; decide +kernel⟩

/-- C49 is false: with default options for remaining points the first call makes clusters of five and four points, and the second one writes out of bounds (see C17). -/
theorem C49_fails : CallOk sampleCfg (refineOpts .anyNeighbor) (hiObj 9 0 none) (List.range 9) (fun _ => 0) (fun _ => 0) (sampleWorld [5]) ∧
    hiSummary (scClustering sampleCfg (builtinSpi (some nineData)) (refineOpts .anyNeighbor) (some (hiObj 9 0 none)) (sampleWorld [5])) =
      some (.ok, 2, [some 0, some 0, some 0, some 0, some 0, some 1, some 1, some 1, some 1]) ∧
    twoCalls .anyNeighbor = none ∧
    (∃ r, scClustering sampleCfg (builtinSpi (some nineData)) (refineOpts .anyNeighbor) (some (hiObj 9 0 none)) (sampleWorld [5]) = some r ∧
      hierarchical sampleCfg sampleEnv (builtinSpi (some nineData)) 2 false r.1.2 r.2 = none) := by
  refine ⟨refineOpts_call _, by decide +kernel, by decide +kernel, ?_⟩
  have h : ((scClustering sampleCfg (builtinSpi (some nineData)) (refineOpts .anyNeighbor) (some (hiObj 9 0 none)) (sampleWorld [5])).map fun r =>
      (hierarchical sampleCfg sampleEnv (builtinSpi (some nineData)) 2 false r.1.2 r.2).isNone) = some true := by decide +kernel
  obtain ⟨r, h1, h2⟩ := Option.map_eq_some_iff.1 h
  exact ⟨r, h1, by simpa using h2⟩

/-- The hypotheses of C50 and C51 hold for the six points on the line. -/
example := C50_check_hierarchical (o := lineOpts .anyNeighbor .noRadius 0) (ob := hiObj 6 0 none) sampleEnv_ok (intMetric lineData_complete).laws (builtinMetric (intMetric lineData_complete)) false
  (hiCallOk_sample (by decide)) rfl (by unfold Spread; decide +kernel) (line_call .anyNeighbor .noRadius 0).arrays (line_accepts (um := .anyNeighbor) (pr := .noRadius) (r := 0) nofun ⟨nofun, nofun⟩).options (by decide)

example := C51_twice (ob := hiObj 6 0 none) sampleEnv_ok (intMetric lineData_complete).laws (builtinMetric (intMetric lineData_complete)) false true
  (hiCallOk_sample (by decide)) rfl (by unfold Spread; decide +kernel) (by decide)

/-- The second call numbers the clusters differently. -/
example : hiSummary (hierarchical sampleCfg sampleEnv (builtinSpi (some lineData)) 2 false (some (hiObj 6 0 none)) (sampleWorld [5])) =
      some (.ok, 3, [some 2, some 2, some 1, some 1, some 0, some 0]) ∧
    ((hierarchical sampleCfg sampleEnv (builtinSpi (some lineData)) 2 false (some (hiObj 6 0 none)) (sampleWorld [5])).bind fun r =>
      hiSummary (hierarchical sampleCfg sampleEnv (builtinSpi (some lineData)) 2 false r.1.2 r.2)) = some (.ok, 3, [some 0, some 0, some 1, some 1, some 2, some 2]) := ⟨by decide +kernel, by decide +kernel⟩

example := C52_stats (ob := lineObj) lineSpi_ok (line_call .anyNeighbor .noRadius 0) (Or.inl ⟨.lexical, rfl⟩) (builtinMatrix lineData_complete) (by decide)

end Scc
