/-
Properties of clustering objects: C34 (lifecycle), C35 (copies) and C36 (export of labels).
Actions of a client, what the client has to ensure, and histories (`Op`, `Op.Allowed`, `Reaches`) are defined in Spec/History.lean.
-/
import Verif.Proofs.History
import Verif.Proofs.SampleData

namespace Scc

variable {F : Type} [FloatOps F]

theorem reaches_inv {cfg : Cfg} (hcfg : cfg.Valid) {U : Multiset Nat} {w0 w : World} {codes : List ErrorCode} {objs : List ClObj} (h : Reaches F cfg U w0 codes objs w) :
    Inv cfg U objs w := by
  induction h with
  | start h => exact ⟨by simp [owned, h], by simp⟩
  | step op h ha hr ih =>
    obtain ⟨r, w', h1, h2⟩ := step_ok hcfg ih op ha
    rw [hr] at h1
    cases h1
    exact h2.inv

/-! ### C34 -/

/-- In every state that can be reached, with whatever requests for memory having failed, every allowed call is free of undefined behaviour: in particular nothing is freed
twice or used after it was freed. -/
theorem C34_no_undefined {cfg : Cfg} (hcfg : cfg.Valid) {U : Multiset Nat} {w0 w : World} {codes : List ErrorCode} {objs : List ClObj} (h : Reaches F cfg U w0 codes objs w)
    (op : Op F) (ha : op.Allowed cfg U objs w) : ∃ r w', op.run cfg objs w = some (r, w') := by
  obtain ⟨r, w', h1, -⟩ := step_ok hcfg (reaches_inv hcfg h) op ha
  exact ⟨r, w', h1⟩

/-- The blocks in memory are those of the client, none of which the library ever frees, and those of the objects that the client holds: calls that fail leave nothing behind. -/
theorem C34_memory {cfg : Cfg} (hcfg : cfg.Valid) {U : Multiset Nat} {w0 w : World} {codes : List ErrorCode} {objs : List ClObj} (h : Reaches F cfg U w0 codes objs w) :
    w.live = U + owned objs := (reaches_inv hcfg h).live

theorem freeAll_spec {U : Multiset Nat} (objs : List ClObj) : ∀ w : World, w.live = U + owned objs → WpM (freeAll objs) w fun _ w' => w'.live = U := by
  induction objs with
  | nil => intro w h; unfold freeAll; rw [wpM_pure, h]; simp [owned]
  | cons ob objs ih =>
    intro w h
    unfold freeAll
    rw [wpM_bind]
    refine (freeClustering_spec (L := U + owned objs) ?_).mono fun _ w' ⟨_, h1, _⟩ => ih w' h1
    rw [h]; simp only [owned, List.map_cons, List.sum_cons]; abel

/-- Freeing all objects releases all memory of the library. -/
theorem C34_free_all {cfg : Cfg} (hcfg : cfg.Valid) {U : Multiset Nat} {w0 w : World} {codes : List ErrorCode} {objs : List ClObj} (h : Reaches F cfg U w0 codes objs w) :
    ∃ w', freeAll objs w = some ((), w') ∧ w'.live = U := by
  obtain ⟨_, w', h1, h2⟩ := freeAll_spec objs w (C34_memory hcfg h)
  exact ⟨w', h1, h2⟩

/-- A call of `scc_init_empty_clustering` that fails sets the output pointer to NULL and leaves no allocation behind; one that succeeds makes one new block. -/
theorem C34_init_empty (cfg : Cfg) (n : Nat) (labels : Option (Blk Int)) (hasOut : Bool) (w : World) :
    ∃ e p w', initEmpty cfg n labels hasOut w = some ((e, p), w') ∧
      (e ≠ .ok ∧ p = none ∧ w'.live = w.live ∨
       e = .ok ∧ ∃ ob, p = some ob ∧ ob.id ∉ w.live ∧ w'.live = {ob.id} + w.live ∧ ob.cl.n = n ∧ ob.cl.numClusters = 0 ∧ ob.cl.label = labels) := by
  obtain ⟨⟨e, p⟩, w', h0, h⟩ := initEmpty_spec (cfg := cfg) (n := n) (labels := labels) (hasOut := hasOut) (w := w)
  refine ⟨e, p, w', h0, ?_⟩
  rcases h with ⟨-, ⟨-, ⟨h1, -, i, hi, h3, h4⟩ | ⟨h, -⟩⟩ | ⟨-, h, -⟩⟩
  · exact Or.inr ⟨h1, _, h3, hi, h4, rfl, rfl, rfl⟩
  · exact Or.inl ⟨h.ne_ok, h.null, h.live⟩
  · exact Or.inl ⟨h.ne_ok, h.null, h.live⟩

/-- The same for `scc_init_existing_clustering`. -/
theorem C34_init_existing {cfg : Cfg} {n k : Nat} {labels : Option (Blk Int)} {deep hasOut : Bool} {w : World} (hl : ∀ b, labels = some b → b.id ∈ w.live ∧ n ≤ b.buf.len) :
    ∃ e p w', initExisting cfg n k labels deep hasOut w = some ((e, p), w') ∧
      (e ≠ .ok ∧ p = none ∧ w'.live = w.live ∨ e = .ok ∧ ∃ ob, p = some ob ∧ ob.id ∉ w.live ∧ w'.live = ob.own + w.live ∧ ob.cl.n = n ∧ ob.cl.numClusters = k) := by
  obtain ⟨⟨e, p⟩, w', h0, h⟩ := initExisting_spec (cfg := cfg) (k := k) (deep := deep) (hasOut := hasOut) hl
  refine ⟨e, p, w', h0, ?_⟩
  rcases h with ⟨-, ⟨-, ⟨h1, h2, src, hsrc, ⟨-, j, hj, h3, h4⟩ | ⟨-, j, j', b, hj, hj', h3, h4, h5, h6⟩⟩ | ⟨h, -⟩⟩ | ⟨-, h, -⟩⟩
  · exact Or.inr ⟨h1, _, h3, hj, by rw [h4]; unfold ClObj.own; simp, rfl, rfl⟩
  · exact Or.inr ⟨h1, _, h3, hj, by rw [h4]; unfold ClObj.own; dsimp only; rw [if_neg (by simp), ptrOwn_some]; abel, rfl, rfl⟩
  · exact Or.inl ⟨h.ne_ok, h.null, h.live⟩
  · exact Or.inl ⟨h.ne_ok, h.null, h.live⟩

/-- The same for `scc_copy_clustering`. -/
theorem C34_copy {cfg : Cfg} {ob : ClObj} {w : World} (hu : Usable cfg ob w) :
    ∃ e p w', copyClustering cfg (some ob) true w = some ((e, p), w') ∧
      (e ≠ .ok ∧ p = none ∧ w'.live = w.live ∨ e = .ok ∧ ∃ ob', p = some ob' ∧ ob'.id ∉ w.live ∧ w'.live = ob'.own + w.live) := by
  obtain ⟨⟨e, p⟩, w', h0, h⟩ := copyClustering_spec hu
  refine ⟨e, p, w', h0, ?_⟩
  rcases h with ⟨-, ⟨h1, -, i, hi, ⟨-, j, b, lb, hj, h3, h4, -⟩ | ⟨-, h3, h4⟩⟩ | ⟨h, -⟩⟩
  · exact Or.inr ⟨h1, _, h3, hi, by rw [h4]; unfold ClObj.own; dsimp only; rw [if_neg (by simp), ptrOwn_some]; abel⟩
  · exact Or.inr ⟨h1, _, h3, hi, by rw [h4]; unfold ClObj.own; simp⟩
  · exact Or.inl ⟨h.ne_ok, h.null, h.live⟩

/-- Labels of four points in an array of the client. -/
def exLabels : Blk Int := ⟨6, Buf.ofList [0, 1, 0, 1]⟩

/-- A world in which the fifth request for memory fails. -/
def fifthFails : World := { sampleWorld [6] with fails := fun i _ => decide (i = 104) }

/-- The history below: a clustering is made from an existing array, it is copied, copied again (which fails since memory runs out), and the original is freed.
The copy of the clustering is left. -/
example : ∃ objs w, Reaches Int sampleCfg {6} fifthFails [.ok, .noMemory, .ok, .ok] objs w ∧ objs.length = 1 ∧ w.live = {6} + owned objs := by
  have hall : ∀ b, some exLabels = some b → b.id ∈ ({6} : Multiset Nat) ∧ 4 ≤ b.buf.len ∧ Filled b.buf 4 := by
    intro b hb
    cases hb
    refine ⟨by decide, by decide, fun v hv => ?_⟩
    show ∃ l, (Buf.ofList [0, 1, 0, 1] : Buf Int).get v = some l
    rw [Buf.get_ofList]
    exact ⟨_, List.getElem?_eq_getElem hv⟩
  have h1 := Reaches.step (F := Int) (cfg := sampleCfg) (U := {6}) (w0 := fifthFails) (Op.initExisting 4 2 (some exLabels) false true) (.start rfl) hall rfl
  have h2 := Reaches.step (F := Int) (Op.copy 0 true) h1 trivial rfl
  have h3 := Reaches.step (F := Int) (Op.copy 0 true) h2 trivial rfl
  have h4 := Reaches.step (F := Int) (Op.free 0) h3 trivial rfl
  exact ⟨_, _, h4, rfl, C34_memory sampleCfg_valid h4⟩

/-! ### C35 -/

/-- A copy has as many points and clusters as the original and, unless the clustering is empty, the same labels; its blocks are new ones. -/
theorem C35_copy {cfg : Cfg} {ob ob' : ClObj} {w w' : World} (hu : Usable cfg ob w) (hr : copyClustering cfg (some ob) true w = some ((.ok, some ob'), w')) :
    ob'.cl.n = ob.cl.n ∧ ob'.cl.numClusters = ob.cl.numClusters ∧ ob'.cl.isInitialized cfg = true ∧ ob'.cl.external = false ∧
      (0 < ob.cl.numClusters → ∃ lb lb', ob.cl.label = some lb ∧ ob'.cl.label = some lb' ∧ ∀ v, v < ob.cl.n → lb'.buf.get v = lb.buf.get v) ∧
      (∀ i ∈ ob'.own, i ∉ w.live) ∧ w'.live = ob'.own + w.live := by
  obtain ⟨i1, i2, i3, i4, i5⟩ := isInitialized_iff.1 hu.init
  obtain ⟨r, w'', h0, h⟩ := copyClustering_spec hu
  rw [hr] at h0
  cases h0
  rcases h with ⟨-, ⟨h1, -, i, hi, ⟨hk, j, b, lb, hj, h3, h4, h5, h6, h7⟩ | ⟨hk, h3, h4⟩⟩ | ⟨h, -⟩⟩
  · cases h3
    refine ⟨rfl, rfl, isInitialized_iff.2 ⟨rfl, i2, i3, i4, fun _ => nofun⟩, rfl, fun _ => ⟨lb, _, h6, rfl, h7⟩, ?_, ?_⟩
    · intro x hx
      simp only [ClObj.own, Bool.false_eq_true, ↓reduceIte, ptrOwn_some, Multiset.mem_add, Multiset.mem_singleton] at hx
      rcases hx with rfl | rfl
      · exact hi
      · exact hj
    · rw [h4]; unfold ClObj.own; dsimp only; rw [if_neg (by simp), ptrOwn_some]; abel
  · cases h3
    refine ⟨rfl, hk.symm, isInitialized_iff.2 ⟨rfl, i2, i3, Nat.zero_le _, fun h => absurd h (lt_irrefl 0)⟩, rfl, fun h => by omega, ?_, by rw [h4]; unfold ClObj.own; simp⟩
    intro x hx
    simp only [ClObj.own, Bool.false_eq_true, ↓reduceIte, ptrOwn_none, add_zero, Multiset.mem_singleton] at hx
    rw [hx]; exact hi
  · exact absurd rfl h.ne_ok

/-- A clustering made with a deep copy of existing labels has these labels in a block of its own. -/
theorem C35_deep_copy {cfg : Cfg} {n k : Nat} {src : Blk Int} {ob : ClObj} {w w' : World} (hl : src.id ∈ w.live ∧ n ≤ src.buf.len)
    (hr : initExisting cfg n k (some src) true true w = some ((.ok, some ob), w')) :
    ob.cl.n = n ∧ ob.cl.numClusters = k ∧ ob.cl.external = false ∧ (∃ lb, ob.cl.label = some lb ∧ ∀ v, v < n → lb.buf.get v = src.buf.get v) ∧
      (∀ i ∈ ob.own, i ∉ w.live) ∧ w'.live = ob.own + w.live := by
  obtain ⟨r, w'', h0, h⟩ := initExisting_spec (cfg := cfg) (n := n) (k := k) (labels := some src) (deep := true) (hasOut := true) (w := w) (by rintro b hb; cases hb; exact hl)
  rw [hr] at h0
  cases h0
  rcases h with ⟨-, ⟨-, ⟨h1, h2, src', hsrc, ⟨h, -⟩ | ⟨-, j, j', b, hj, hj', h3, h4, h5, h6⟩⟩ | ⟨h, -⟩⟩ | ⟨-, h, -⟩⟩
  · cases h
  · cases h3
    cases hsrc
    refine ⟨rfl, rfl, rfl, ⟨_, rfl, h6⟩, ?_, ?_⟩
    · intro x hx
      simp only [ClObj.own, Bool.false_eq_true, ↓reduceIte, ptrOwn_some, Multiset.mem_add, Multiset.mem_singleton] at hx
      rcases hx with rfl | rfl
      · exact hj
      · exact hj'
    · rw [h4]; unfold ClObj.own; dsimp only; rw [if_neg (by simp), ptrOwn_some]; abel
  · exact absurd rfl h.ne_ok
  · exact absurd rfl h.ne_ok

theorem mem_putBack {objs : List ClObj} {i : Nat} {ob : ClObj} {p : Option ClObj} (h : ob ∈ objs) (hi : objs[i]? ≠ some ob) : ob ∈ putBack objs i p := by
  obtain ⟨j, hj⟩ := List.mem_iff_getElem?.1 h
  cases p with
  | none => exact h
  | some ob' =>
    dsimp only [putBack]
    refine List.mem_iff_getElem?.2 ⟨j, ?_⟩
    rw [List.getElem?_set_ne (by rintro rfl; exact hi hj), hj]

/-- An action that does not free or change an object leaves the client with that object. -/
theorem C35_kept {cfg : Cfg} {objs objs' : List ClObj} {ob : ClObj} {w w' : World} {e : ErrorCode} (op : Op F) (h : ob ∈ objs) (hop : op.changes objs ≠ some ob)
    (hr : op.run cfg objs w = some ((e, objs'), w')) : ob ∈ objs' := by
  have hget : ∀ {α : Type} {x : M α} {f : α → ErrorCode × List ClObj}, (do let r ← x; pure (f r)) w = some ((e, objs'), w') → ∃ r, objs' = (f r).2 := by
    intro α x f hx
    have : (x w).bind (fun r => some (f r.1, r.2)) = some ((e, objs'), w') := hx
    rw [Option.bind_eq_some_iff] at this
    obtain ⟨r, -, h2⟩ := this
    simp only [Option.some.injEq, Prod.mk.injEq] at h2
    exact ⟨r.1, by rw [h2.1]⟩
  cases op with
  | initEmpty n l o => obtain ⟨r, rfl⟩ := hget hr; exact List.mem_append_left _ h
  | initExisting n k l d o => obtain ⟨r, rfl⟩ := hget hr; exact List.mem_append_left _ h
  | copy i o => obtain ⟨r, rfl⟩ := hget hr; exact List.mem_append_left _ h
  | info i => obtain ⟨r, rfl⟩ := hget hr; exact h
  | getLabels i l o => obtain ⟨r, rfl⟩ := hget hr; exact h
  | check i o b => obtain ⟨r, rfl⟩ := hget hr; exact h
  | cluster i spi o => obtain ⟨r, rfl⟩ := hget hr; exact mem_putBack h hop
  | hierarchical i hi spi S b => obtain ⟨r, rfl⟩ := hget hr; exact mem_putBack h hop
  | stats i spi b => obtain ⟨r, rfl⟩ := hget hr; exact h
  | write i b => cases hr; exact mem_putBack h hop
  | free i =>
    obtain ⟨r, rfl⟩ := hget (x := freeClustering objs[i]?) (f := fun _ => (.ok, objs.eraseIdx i)) hr
    obtain ⟨j, hj⟩ := List.mem_iff_getElem?.1 h
    have hne : j ≠ i := by rintro rfl; exact hop hj
    rw [List.mem_eraseIdx_iff_getElem?]
    exact ⟨j, hne, hj⟩

theorem own_le_owned {objs : List ClObj} {ob : ClObj} (h : ob ∈ objs) : ob.own ≤ owned objs := by
  obtain ⟨i, hi⟩ := List.mem_iff_getElem?.1 h
  rw [owned_eraseIdx hi]
  exact Multiset.le_add_right _ _

/-- The blocks of an object that the client holds are live. -/
theorem C35_live {cfg : Cfg} (hcfg : cfg.Valid) {U : Multiset Nat} {w0 w : World} {codes : List ErrorCode} {objs : List ClObj} (h : Reaches F cfg U w0 codes objs w) {ob : ClObj}
    (hob : ob ∈ objs) : ob.own ≤ w.live := by
  rw [C34_memory hcfg h]
  exact le_trans (own_le_owned hob) (Multiset.le_add_left _ _)

theorem getLabels_spec {cfg : Cfg} {ob : ClObj} {w : World} {len : Nat} {lb : Blk Int} {b : Buf Int} (hu : Usable cfg ob w) (hk : 0 < ob.cl.numClusters) (hlb : ob.cl.label = some lb)
    (hf : Filled lb.buf ob.cl.n) (hlen : 0 < len) (hb : len ≤ b.len) :
    WpM (Scc.getLabels cfg (some ob) len (some b)) w fun r w' => r.1 = .ok ∧ w' = w ∧ ∃ b', r.2 = some b' ∧ b'.len = b.len ∧
      (∀ v, v < min len ob.cl.n → b'.get v = lb.buf.get v) ∧ (∀ v, ob.cl.n ≤ v → v < len → b'.get v = some cfg.na) ∧ ∀ v, len ≤ v → b'.get v = b.get v := by
  unfold Scc.getLabels
  rw [wpM_bind]
  refine isInitialized_wp hu.live ?_
  rw [hu.init]
  dsimp only
  rw [if_neg (by omega), if_neg (by omega), wpM_bind, wpM_useK]
  refine ⟨by simp [ptrIds, hlb, (hu.label lb hlb).1], ?_⟩
  rw [hlb]
  refine (exportLabels_spec (cfg := cfg) (labels := lb.buf) (fun v hv => hf v (by omega)) hb).mono fun b' hb' => ?_
  rw [wpM_pure]
  exact ⟨rfl, rfl, b', rfl, hb'⟩

/-- After a successful copy the original can be changed and freed at will. Unless the copy itself is changed or freed, it stays an object of the client (`C35_kept`) and its
blocks stay live (`C35_live`). In any state `s` with these blocks live, exporting the labels of the copy gives the labels that the original had. -/
theorem C35_independent {cfg : Cfg} {ob ob' : ClObj} {w w' : World} {lb : Blk Int} (hu : Usable cfg ob w) (hk : 0 < ob.cl.numClusters) (hlb : ob.cl.label = some lb)
    (hf : Filled lb.buf ob.cl.n) (hr : copyClustering cfg (some ob) true w = some ((.ok, some ob'), w')) {s : World} (hs : ob'.own ≤ s.live) {len : Nat} {out : Buf Int} (hlen : 0 < len)
    (hout : len ≤ out.len) :
    ∃ out', Scc.getLabels cfg (some ob') len (some out) s = some ((.ok, some out'), s) ∧ (∀ v, v < min len ob.cl.n → out'.get v = lb.buf.get v) ∧
      ∀ v, ob.cl.n ≤ v → v < len → out'.get v = some cfg.na := by
  obtain ⟨h1, h2, h3, h4, h5, h6, h7⟩ := C35_copy hu hr
  obtain ⟨lb0, lb', g1, g2, g3⟩ := h5 hk
  rw [hlb] at g1
  cases g1
  have hown : {ob'.id} + {lb'.id} ≤ s.live := by
    refine le_trans (le_of_eq ?_) hs
    unfold ClObj.own
    rw [h4, if_neg (by simp), g2, ptrOwn_some]
  have hlen' : ob.cl.n ≤ lb'.buf.len := by
    by_contra hc
    obtain ⟨l, hl⟩ := hf lb'.buf.len (by omega)
    have := g3 lb'.buf.len (by omega)
    rw [hl] at this
    simp [Buf.get] at this
  have hu' : Usable cfg ob' s := ⟨h3, Multiset.mem_of_le hown (by simp), fun x hx => by
    rw [g2] at hx; cases hx; exact ⟨Multiset.mem_of_le hown (by simp), by rw [h1]; exact hlen'⟩⟩
  obtain ⟨⟨e, p⟩, s', k0, k1, k2, b', k3, -, k4, k5, -⟩ := getLabels_spec (len := len) (b := out) hu' (by omega) g2 (by rw [h1]; intro v hv; rw [g3 v hv]; exact hf v hv) hlen hout
  dsimp only at k1 k3
  subst k1 k2 k3
  rw [h1] at k4 k5
  exact ⟨b', k0, fun v hv => by rw [k4 v hv]; exact g3 v (by omega), k5⟩

/-- An object with these labels. -/
def exObj : ClObj := ⟨5, clusteringVersion, 4, 2, some exLabels, true⟩

theorem exObj_usable : Usable sampleCfg exObj (sampleWorld [5, 6]) :=
  ⟨rfl, by decide, fun lb h => by cases h; exact ⟨by decide, by decide⟩⟩

theorem exLabels_filled : Filled exLabels.buf 4 := by
  intro v hv
  show ∃ l, (Buf.ofList [0, 1, 0, 1] : Buf Int).get v = some l
  rw [Buf.get_ofList]
  exact ⟨_, List.getElem?_eq_getElem hv⟩

/-- The hypotheses are met: the object can be copied, and its original freed. -/
example : ∃ ob' w' s, copyClustering sampleCfg (some exObj) true (sampleWorld [5, 6]) = some ((.ok, some ob'), w') ∧ freeClustering (some exObj) w' = some ((), s) ∧
    ob'.own ≤ s.live ∧ ∃ out', Scc.getLabels sampleCfg (some ob') 6 (some (Buf.raw 6)) s = some ((.ok, some out'), s) ∧ out'.get 1 = some 1 ∧ out'.get 5 = some sampleCfg.na := by
  have hr : copyClustering sampleCfg (some exObj) true (sampleWorld [5, 6]) = some ((.ok, some _), _) := rfl
  have key := fun (s : World) hs => C35_independent exObj_usable (by decide) (lb := exLabels) rfl exLabels_filled hr (s := s) hs (len := 6) (out := Buf.raw 6) (by decide) (by decide)
  suffices h : ∃ s, freeClustering (some exObj) _ = some ((), s) ∧ _ ≤ s.live by
    obtain ⟨s, h1, h2⟩ := h
    obtain ⟨out', g1, g2, g3⟩ := key s h2
    exact ⟨_, _, s, hr, h1, h2, out', g1, g2 1 (by decide), g3 5 (by decide) (by decide)⟩
  exact ⟨_, rfl, by decide⟩

/-! ### C36 -/

/-- `scc_get_cluster_labels` on a clustering that is not empty: the first `min(len, n)` labels are written, the remaining `len - n` entries are set to NA, and nothing else
is written. -/
theorem C36_export {cfg : Cfg} {ob : ClObj} {w : World} {len : Nat} {lb : Blk Int} {b : Buf Int} (hu : Usable cfg ob w) (hk : 0 < ob.cl.numClusters) (hlb : ob.cl.label = some lb)
    (hf : Filled lb.buf ob.cl.n) (hlen : 0 < len) (hb : len ≤ b.len) :
    ∃ b', Scc.getLabels cfg (some ob) len (some b) w = some ((.ok, some b'), w) ∧ b'.len = b.len ∧ (∀ v, v < min len ob.cl.n → b'.get v = lb.buf.get v) ∧
      (∀ v, ob.cl.n ≤ v → v < len → b'.get v = some cfg.na) ∧ ∀ v, len ≤ v → b'.get v = b.get v := by
  obtain ⟨⟨e, p⟩, s', k0, k1, k2, b', k3, k4⟩ := getLabels_spec hu hk hlb hf hlen hb
  dsimp only at k1 k3
  subst k1 k2 k3
  exact ⟨b', k0, k4⟩

/-- `scc_get_cluster_labels` fails without writing for a NULL pointer, an object that is not initialized, an empty clustering, an empty buffer and a NULL buffer. -/
theorem C36_rejects {cfg : Cfg} {p : Option ClObj} {w : World} {len : Nat} {out : Option (Buf Int)} (hl : ∀ ob, p = some ob → ob.id ∈ w.live)
    (h : (∀ ob, p = some ob → ob.cl.isInitialized cfg = false ∨ ob.cl.numClusters = 0) ∨ len = 0 ∨ out = none) :
    ∃ w', Scc.getLabels cfg p len out w = some ((.invalidInput, out), w') ∧ w'.live = w.live ∧ w'.err.code = .invalidInput := by
  suffices hw : WpM (Scc.getLabels cfg p len out) w fun r w' => r = (.invalidInput, out) ∧ w'.live = w.live ∧ w'.err.code = .invalidInput by
    obtain ⟨r, w', h1, rfl, h3⟩ := hw
    exact ⟨w', h1, h3⟩
  unfold Scc.getLabels
  rw [wpM_bind]
  have herr : ∀ {line : Nat} {m : Option String}, WpM (do let e ← mkErr .invalidInput "src/scclust.c" line m; pure (e, out)) w
      fun r w' => r = (.invalidInput, out) ∧ w'.live = w.live ∧ w'.err.code = .invalidInput := by
    intro line m
    rw [wpM_bind]
    refine wpM_mkErr fun w1 _ l1 e1 => ?_
    rw [wpM_pure]
    exact ⟨rfl, l1, by rw [e1]⟩
  cases p with
  | none => unfold isInitialized; dsimp only; rw [wpM_pure]; exact herr
  | some ob =>
    refine isInitialized_wp (hl ob rfl) ?_
    cases hi : ob.cl.isInitialized cfg with
    | false => exact herr
    | true =>
      dsimp only
      by_cases h0 : ob.cl.numClusters = 0
      · rw [if_pos h0]; exact herr
      rw [if_neg h0]
      by_cases h1 : len = 0
      · rw [if_pos h1]; exact herr
      rw [if_neg h1]
      rcases h with h | h | h
      · rcases h ob rfl with h | h
        · rw [hi] at h; cases h
        · exact absurd h h0
      · exact absurd h h1
      · subst h; exact herr

/-- Six entries of a buffer with room for eight are requested from the clustering of four points. -/
example : ∃ b', Scc.getLabels sampleCfg (some exObj) 6 (some (Buf.fill 8 7)) (sampleWorld [5, 6]) = some ((.ok, some b'), sampleWorld [5, 6]) ∧
    (List.range 8).map b'.get = [some 0, some 1, some 0, some 1, some sampleCfg.na, some sampleCfg.na, some 7, some 7] := ⟨_, rfl, by decide⟩

/-- The same of two entries. -/
example : ∃ b', Scc.getLabels sampleCfg (some exObj) 2 (some (Buf.fill 8 7)) (sampleWorld [5, 6]) = some ((.ok, some b'), sampleWorld [5, 6]) ∧
    (List.range 3).map b'.get = [some 0, some 1, some 7] := ⟨_, rfl, by decide⟩

end Scc
