/-
Clustering objects: specifications of `scc_init_empty_clustering`, `scc_init_existing_clustering`, `scc_free_clustering`, `scc_copy_clustering`,
`scc_get_clustering_info` and `scc_get_cluster_labels`.
-/
import Verif.Proofs.Call
import Verif.Spec.History

set_option linter.unusedSimpArgs false
set_option linter.unusedVariables false

namespace Scc

/-- A call that failed: it made no object and memory is as before. -/
structure NoObject (w : World) (r : ErrorCode × Option ClObj) (w' : World) : Prop where
  ne_ok : r.1 ≠ .ok
  null : r.2 = none
  live : w'.live = w.live
  err : w'.err.code = r.1

theorem noObject_err {ec : ErrorCode} {line : Nat} {m : Option String} {w : World} {Q : ErrorCode × Option ClObj → World → Prop} {f : String} (hne : ec ≠ .ok)
    (h : ∀ w', w'.fails = w.fails → NoObject w (ec, none) w' → Q (ec, none) w') : WpM (do let e ← mkErr ec f line m; pure (e, none)) w Q := by
  rw [wpM_bind]
  refine wpM_mkErr fun w1 f1 l1 e1 => ?_
  rw [wpM_pure]
  exact h w1 f1 ⟨hne, rfl, l1, by rw [e1]⟩

/-- The sizes of a new clustering object are acceptable. -/
def GoodSize (cfg : Cfg) (n : Nat) : Prop := n ≠ 0 ∧ n ≤ cfg.pointMax ∧ n ≤ cfg.sizeMax - 1

theorem initEmpty_spec {cfg : Cfg} {n : Nat} {labels : Option (Blk Int)} {hasOut : Bool} {w : World} :
    WpM (initEmpty cfg n labels hasOut) w fun r w' => w'.fails = w.fails ∧
      ((hasOut = true ∧ GoodSize cfg n) ∧ (r.1 = .ok ∧ w'.err = w.err ∧ (∃ i, i ∉ w.live ∧ r.2 = some ⟨i, clusteringVersion, n, 0, labels, labels.isSome⟩ ∧ w'.live = {i} + w.live) ∨
          NoObject w r w' ∧ r.1 = .noMemory ∧ ¬ w.NoFail) ∨
        ¬ (hasOut = true ∧ GoodSize cfg n) ∧ NoObject w r w' ∧ r.1 ≠ .noMemory) := by
  unfold initEmpty
  cases hasOut with
  | false =>
    rw [if_pos (by rfl)]
    exact noObject_err nofun fun w' f h => ⟨f, Or.inr ⟨by simp, h, nofun⟩⟩
  | true =>
    rw [if_neg (by simp)]
    by_cases h1 : n = 0
    · rw [if_pos h1]
      exact noObject_err nofun fun w' f h => ⟨f, Or.inr ⟨fun hg => hg.2.1 h1, h, nofun⟩⟩
    · rw [if_neg h1]
      by_cases h2 : cfg.pointMax < n
      · rw [if_pos h2]
        exact noObject_err nofun fun w' f h => ⟨f, Or.inr ⟨fun hg => by have := hg.2.2.1; omega, h, nofun⟩⟩
      · rw [if_neg h2]
        by_cases h3 : cfg.sizeMax - 1 < n
        · rw [if_pos h3]
          exact noObject_err nofun fun w' f h => ⟨f, Or.inr ⟨fun hg => by have := hg.2.2.2; omega, h, nofun⟩⟩
        · rw [if_neg h3, wpM_bind]
          have hg : GoodSize cfg n := ⟨h1, by omega, by omega⟩
          refine wpM_allocF (fun w1 hn f1 l1 e1 => ?_) fun i w1 hi f1 l1 e1 => ?_
          · dsimp only
            refine noObject_err nofun fun w' f h => ⟨by rw [f, f1], Or.inl ⟨⟨rfl, hg⟩, Or.inr ⟨⟨h.ne_ok, h.null, by rw [h.live, l1], h.err⟩, rfl, hn⟩⟩⟩
          · dsimp only
            rw [wpM_pure]
            exact ⟨f1, Or.inl ⟨⟨rfl, hg⟩, Or.inl ⟨rfl, e1, i, hi, rfl, l1⟩⟩⟩

/-- A copy of the first `n` cells. -/
theorem copyLabels_spec {n : Nat} {src dst : Buf Int} (h1 : n ≤ src.len) (h2 : dst.len = n) :
    Wp (copyLabels n src dst) fun b => b.len = n ∧ ∀ i, i < n → b.cell i = src.cell i := by
  unfold copyLabels
  refine wp_forLt (fun i b => b.len = n ∧ ∀ j, j < i → b.cell j = src.cell j) (Nat.zero_le _) ⟨h2, by simp⟩ ?_ (fun s h => h)
  rintro i b _ hi ⟨hb1, hb2⟩
  rw [if_pos ⟨by omega, by omega⟩, wp_pure]
  refine ⟨hb1, fun j hj => ?_⟩
  dsimp only
  by_cases hji : j = i
  · rw [if_pos hji, hji]
  · rw [if_neg hji]; exact hb2 j (by omega)

/-- `b` holds the same labels of `n` points as `b'`. -/
def SameLabels (n : Nat) (b b' : Buf Int) : Prop := ∀ v, v < n → b.get v = b'.get v

theorem sameLabels_of_copy {n : Nat} {src b : Buf Int} (h1 : n ≤ src.len) (hb : b.len = n ∧ ∀ i, i < n → b.cell i = src.cell i) : SameLabels n b src := by
  intro v hv
  unfold Buf.get
  rw [if_pos (by omega), if_pos (by omega), hb.2 v hv]

/-- The arguments of `scc_init_existing_clustering` are acceptable. -/
def GoodExisting (cfg : Cfg) (n k : Nat) (labels : Option (Blk Int)) : Prop := GoodSize cfg n ∧ k ≠ 0 ∧ k ≤ cfg.clabelMax ∧ k ≤ cfg.sizeMax ∧ labels ≠ none

theorem initExisting_spec {cfg : Cfg} {n k : Nat} {labels : Option (Blk Int)} {deep hasOut : Bool} {w : World} (hl : ∀ b, labels = some b → b.id ∈ w.live ∧ n ≤ b.buf.len) :
    WpM (initExisting cfg n k labels deep hasOut) w fun r w' => w'.fails = w.fails ∧
      ((hasOut = true ∧ GoodExisting cfg n k labels) ∧ (r.1 = .ok ∧ w'.err = w.err ∧ (∃ src, labels = some src ∧
          (deep = false ∧ (∃ i, i ∉ w.live ∧ r.2 = some ⟨i, clusteringVersion, n, k, some src, true⟩ ∧ w'.live = {i} + w.live) ∨
           deep = true ∧ ∃ i j b, i ∉ w.live ∧ j ∉ w.live ∧ r.2 = some ⟨i, clusteringVersion, n, k, some ⟨j, b⟩, false⟩ ∧ w'.live = {j} + ({i} + w.live) ∧ b.len = n ∧ SameLabels n b src.buf)) ∨
          NoObject w r w' ∧ r.1 = .noMemory ∧ ¬ w.NoFail) ∨
        ¬ (hasOut = true ∧ GoodExisting cfg n k labels) ∧ NoObject w r w' ∧ r.1 ≠ .noMemory) := by
  unfold initExisting
  cases hasOut with
  | false =>
    rw [if_pos (by rfl)]
    exact noObject_err nofun fun w' f h => ⟨f, Or.inr ⟨by simp, h, nofun⟩⟩
  | true =>
    rw [if_neg (by simp)]
    by_cases h1 : n = 0
    · rw [if_pos h1]
      exact noObject_err nofun fun w' f h => ⟨f, Or.inr ⟨fun hg => hg.2.1.1 h1, h, nofun⟩⟩
    rw [if_neg h1]
    by_cases h2 : cfg.pointMax < n
    · rw [if_pos h2]
      exact noObject_err nofun fun w' f h => ⟨f, Or.inr ⟨fun hg => by have := hg.2.1.2.1; omega, h, nofun⟩⟩
    rw [if_neg h2]
    by_cases h3 : cfg.sizeMax - 1 < n
    · rw [if_pos h3]
      exact noObject_err nofun fun w' f h => ⟨f, Or.inr ⟨fun hg => by have := hg.2.1.2.2; omega, h, nofun⟩⟩
    rw [if_neg h3]
    by_cases h4 : k = 0
    · rw [if_pos h4]
      exact noObject_err nofun fun w' f h => ⟨f, Or.inr ⟨fun hg => hg.2.2.1 h4, h, nofun⟩⟩
    rw [if_neg h4]
    by_cases h5 : cfg.clabelMax < k
    · rw [if_pos h5]
      exact noObject_err nofun fun w' f h => ⟨f, Or.inr ⟨fun hg => by have := hg.2.2.2.1; omega, h, nofun⟩⟩
    rw [if_neg h5]
    by_cases h6 : cfg.sizeMax < k
    · rw [if_pos h6]
      exact noObject_err nofun fun w' f h => ⟨f, Or.inr ⟨fun hg => by have := hg.2.2.2.2.1; omega, h, nofun⟩⟩
    rw [if_neg h6]
    cases labels with
    | none =>
      dsimp only
      exact noObject_err nofun fun w' f h => ⟨f, Or.inr ⟨fun hg => hg.2.2.2.2.2 rfl, h, nofun⟩⟩
    | some src =>
      dsimp only
      obtain ⟨hs1, hs2⟩ := hl src rfl
      have hg : GoodExisting cfg n k (some src) := ⟨⟨h1, by omega, by omega⟩, h4, by omega, by omega, nofun⟩
      rw [wpM_bind]
      refine wpM_allocF (fun w1 hn f1 l1 e1 => ?_) fun i w1 hi f1 l1 e1 => ?_
      · dsimp only
        exact noObject_err nofun fun w' f h => ⟨by rw [f, f1], Or.inl ⟨⟨rfl, hg⟩, Or.inr ⟨⟨h.ne_ok, h.null, by rw [h.live, l1], h.err⟩, rfl, hn⟩⟩⟩
      · dsimp only
        cases deep with
        | false =>
          rw [if_neg Bool.false_ne_true, wpM_pure]
          exact ⟨f1, Or.inl ⟨⟨rfl, hg⟩, Or.inl ⟨rfl, e1, src, rfl, Or.inl ⟨rfl, i, hi, rfl, l1⟩⟩⟩⟩
        | true =>
          rw [if_pos rfl, wpM_bind]
          refine wpM_allocF (fun w2 hn f2 l2 e2 => ?_) fun j w2 hj f2 l2 e2 => ?_
          · dsimp only
            rw [wpM_bind]
            refine wpM_freeId w.live (by rw [l2, l1]) fun w3 f3 l3 e3 => ?_
            refine noObject_err nofun fun w' f h => ⟨by rw [f, f3, f2, f1], Or.inl ⟨⟨rfl, hg⟩, Or.inr ⟨⟨h.ne_ok, h.null, by rw [h.live, l3], h.err⟩, rfl, ?_⟩⟩⟩
            rwa [noFail_congr f1] at hn
          · dsimp only
            rw [wpM_bind, wpM_useK]
            refine ⟨by simp [l2, l1, hs1], (copyLabels_spec hs2 rfl).mono fun b hb => ?_⟩
            rw [wpM_pure]
            have hj' : j ∉ w.live := fun h => hj (by rw [l1]; simp [h])
            exact ⟨by rw [f2, f1], Or.inl ⟨⟨rfl, hg⟩, Or.inl ⟨rfl, by rw [e2, e1], src, rfl, Or.inr ⟨rfl, i, j, b, hi, hj', rfl, by rw [l2, l1], hb.1, sameLabels_of_copy hs2 hb⟩⟩⟩⟩

theorem freeClustering_spec {ob : ClObj} {L : Multiset Nat} {w : World} (hl : w.live = ob.own + L) :
    WpM (freeClustering (some ob)) w fun _ w' => w'.fails = w.fails ∧ w'.live = L ∧ w'.err = w.err := by
  unfold freeClustering
  unfold ClObj.own at hl
  dsimp only
  rw [wpM_bind, touch, wpM_useK]
  refine ⟨by simp [hl], ?_⟩
  rw [wp_some]
  cases he : ob.cl.external with
  | true =>
    rw [he, if_pos rfl, add_zero] at hl
    rw [if_neg (by simp)]
    exact wpM_freeId L hl fun w1 f1 l1 e1 => ⟨f1, l1, e1⟩
  | false =>
    rw [he, if_neg (by simp)] at hl
    rw [if_pos (by rfl), wpM_bind]
    refine wpM_freePtr ({ob.id} + L) (by rw [hl]; abel) fun w1 f1 l1 e1 => ?_
    exact wpM_freeId L l1 fun w2 f2 l2 e2 => ⟨by rw [f2, f1], l2, by rw [e2, e1]⟩

/-- An object that is initialized and whose label array, if any, is live and has room for the labels of all points. -/
structure Usable (cfg : Cfg) (ob : ClObj) (w : World) : Prop where
  init : ob.cl.isInitialized cfg = true
  live : ob.id ∈ w.live
  label : ∀ lb, ob.cl.label = some lb → lb.id ∈ w.live ∧ ob.cl.n ≤ lb.buf.len

theorem isInitialized_wp {cfg : Cfg} {ob : ClObj} {w : World} {Q : Bool → World → Prop} (hl : ob.id ∈ w.live) (h : Q (ob.cl.isInitialized cfg) w) :
    WpM (isInitialized cfg (some ob)) w Q := by
  unfold isInitialized
  dsimp only
  rw [wpM_bind, touch, wpM_useK]
  refine ⟨by simpa using hl, ?_⟩
  rw [wp_some, wpM_pure]
  exact h

theorem copyClustering_spec {cfg : Cfg} {ob : ClObj} {w : World} (hu : Usable cfg ob w) :
    WpM (copyClustering cfg (some ob) true) w fun r w' => w'.fails = w.fails ∧
      (r.1 = .ok ∧ w'.err = w.err ∧ (∃ i, i ∉ w.live ∧
          (0 < ob.cl.numClusters ∧ (∃ j b lb, j ∉ w.live ∧ r.2 = some ⟨i, clusteringVersion, ob.cl.n, ob.cl.numClusters, some ⟨j, b⟩, false⟩ ∧ w'.live = {j} + ({i} + w.live) ∧ b.len = ob.cl.n ∧
            ob.cl.label = some lb ∧ SameLabels ob.cl.n b lb.buf) ∨
           ob.cl.numClusters = 0 ∧ r.2 = some ⟨i, clusteringVersion, ob.cl.n, 0, none, false⟩ ∧ w'.live = {i} + w.live)) ∨
        NoObject w r w' ∧ r.1 = .noMemory ∧ ¬ w.NoFail) := by
  unfold copyClustering
  rw [if_neg (by simp), wpM_bind]
  refine isInitialized_wp hu.live ?_
  rw [hu.init]
  dsimp only
  rw [wpM_bind]
  refine wpM_allocF (fun w1 hn f1 l1 e1 => ?_) fun i w1 hi f1 l1 e1 => ?_
  · dsimp only
    exact noObject_err nofun fun w' f h => ⟨by rw [f, f1], Or.inr ⟨⟨h.ne_ok, h.null, by rw [h.live, l1], h.err⟩, rfl, hn⟩⟩
  · dsimp only
    by_cases h0 : 0 < ob.cl.numClusters
    · rw [if_pos h0, wpM_bind]
      refine wpM_allocF (fun w2 hn f2 l2 e2 => ?_) fun j w2 hj f2 l2 e2 => ?_
      · dsimp only
        rw [wpM_bind]
        refine wpM_freeId w.live (by rw [l2, l1]) fun w3 f3 l3 e3 => ?_
        refine noObject_err nofun fun w' f h => ⟨by rw [f, f3, f2, f1], Or.inr ⟨⟨h.ne_ok, h.null, by rw [h.live, l3], h.err⟩, rfl, ?_⟩⟩
        rwa [noFail_congr f1] at hn
      · dsimp only
        cases hlb : ob.cl.label with
        | none => exact absurd hlb ((isInitialized_iff.1 hu.init).2.2.2.2 h0)
        | some lb =>
          obtain ⟨hs1, hs2⟩ := hu.label lb hlb
          rw [wpM_bind, wpM_useK]
          refine ⟨by simp [l2, l1, hs1, ptrIds], ?_⟩
          refine Wp.mono (copyLabels_spec (src := lb.buf) hs2 rfl) fun b hb => ?_
          rw [wpM_pure]
          have hj' : j ∉ w.live := fun h => hj (by rw [l1]; simp [h])
          exact ⟨by rw [f2, f1], Or.inl ⟨rfl, by rw [e2, e1], i, hi, Or.inl ⟨h0, j, b, lb, hj', rfl, by rw [l2, l1], hb.1, rfl, sameLabels_of_copy hs2 hb⟩⟩⟩
    · rw [if_neg h0, wpM_pure]
      have h0' : ob.cl.numClusters = 0 := by omega
      exact ⟨f1, Or.inl ⟨rfl, e1, i, hi, Or.inr ⟨h0', by rw [h0'], l1⟩⟩⟩

theorem exportLabels_spec {cfg : Cfg} {n len : Nat} {labels out : Buf Int} (hf : ∀ v, v < min len n → ∃ l, labels.get v = some l) (ho : len ≤ out.len) :
    Wp (exportLabels cfg n len labels out) fun b => b.len = out.len ∧ (∀ v, v < min len n → b.get v = labels.get v) ∧ (∀ v, n ≤ v → v < len → b.get v = some cfg.na) ∧
      ∀ v, len ≤ v → b.get v = out.get v := by
  unfold exportLabels
  rw [wp_bind]
  refine wp_forLt (fun i b => b.len = out.len ∧ (∀ v, v < i → b.get v = labels.get v) ∧ ∀ v, i ≤ v → b.get v = out.get v) (Nat.zero_le _) ⟨rfl, by simp, by simp⟩ ?_ ?_
  · rintro i b _ hi ⟨h1, h2, h3⟩
    obtain ⟨l, hl⟩ := hf i hi
    rw [wp_bind, wp_eq hl, Buf.wp_set]
    refine ⟨by omega, by simpa using h1, fun v hv => ?_, fun v hv => ?_⟩
    · by_cases hvi : v = i
      · subst hvi; rw [Buf.get_upd_self _ _ (by omega), hl]
      · rw [Buf.get_upd_ne _ _ hvi]; exact h2 v (by omega)
    · rw [Buf.get_upd_ne _ _ (by omega)]; exact h3 v (by omega)
  · rintro b ⟨h1, h2, h3⟩
    refine wp_forLt (fun i b => b.len = out.len ∧ (∀ v, v < min len n → b.get v = labels.get v) ∧ (∀ v, min len n ≤ v → v < i → b.get v = some cfg.na) ∧ ∀ v, i ≤ v → b.get v = out.get v)
      (Nat.min_le_left _ _) ⟨h1, h2, fun v hv hv' => by omega, h3⟩ ?_ ?_
    · rintro i b hi0 hi ⟨g1, g2, g3, g4⟩
      rw [Buf.wp_set]
      refine ⟨by omega, by simpa using g1, fun v hv => ?_, fun v hv hv' => ?_, fun v hv => ?_⟩
      · rw [Buf.get_upd_ne _ _ (by omega)]; exact g2 v hv
      · by_cases hvi : v = i
        · subst hvi; rw [Buf.get_upd_self _ _ (by omega)]
        · rw [Buf.get_upd_ne _ _ hvi]; exact g3 v hv (by omega)
      · rw [Buf.get_upd_ne _ _ (by omega)]; exact g4 v (by omega)
    · rintro b ⟨g1, g2, g3, g4⟩
      exact ⟨g1, g2, fun v hv hv' => g3 v (by omega) hv', g4⟩

end Scc
