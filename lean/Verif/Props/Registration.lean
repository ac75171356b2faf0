/-
Properties of data sets (C37), of the latest error (C40) and of the registration of distance functions (C41).
`GoodData`, `RegOp` and `registered` are defined in Spec/Registration.lean.
-/
import Verif.Spec.Registration
import Verif.Props.Objects

namespace Scc

variable {F : Type}

/-! ### C37 -/

/-- Full statement of C37 for a call: it succeeds, with a data set of the given dimensions in a new block, exactly if the arguments are acceptable and there is memory;
otherwise it leaves NULL and no allocation behind. -/
def DataSetExact (cfg : Cfg) (n dims len : Nat) (data : Option (Buf F)) (hasOut : Bool) (w : World) : Prop :=
  ∃ e p w', initDataSet cfg n dims len data hasOut w = some ((e, p), w') ∧
    (hasOut = true ∧ GoodData cfg n dims len data →
      e = .ok ∧ (∃ ob, p = some ob ∧ ob.ds.n = n ∧ ob.ds.dims = dims ∧ ob.ds.data = data ∧ ob.ds.isInitialized = true ∧ ob.id ∉ w.live ∧ w'.live = {ob.id} + w.live) ∨
      e = .noMemory ∧ ¬ w.NoFail ∧ p = none ∧ w'.live = w.live ∧ w'.err.code = e) ∧
    (¬ (hasOut = true ∧ GoodData cfg n dims len data) → e ≠ .ok ∧ e ≠ .noMemory ∧ p = none ∧ w'.live = w.live ∧ w'.err.code = e)

theorem dataSet_err {ec : ErrorCode} {line : Nat} {m : Option String} {w : World} {f : String} (hne : ec ≠ .ok ∧ ec ≠ .noMemory) {A : Prop} {B : ErrorCode × Option (DsObj F) → World → Prop} (hA : ¬ A) :
    WpM (do let e ← mkErr ec f line m; pure (e, (none : Option (DsObj F)))) w fun r w' =>
      (A → B r w') ∧ (¬ A → r.1 ≠ .ok ∧ r.1 ≠ .noMemory ∧ r.2 = none ∧ w'.live = w.live ∧ w'.err.code = r.1) := by
  rw [wpM_bind]
  refine wpM_mkErr fun w1 f1 l1 e1 => ?_
  rw [wpM_pure]
  exact ⟨fun h => absurd h hA, fun _ => ⟨hne.1, hne.2, rfl, l1, by rw [e1]⟩⟩

/-- C37 whenever the product of the sizes is computed without overflow. In particular this covers every point type of at most 48 bits (see `C37_exact_48`).
Missing for the full property: 64-bit point types, for which it is false, see `C37_fails`. -/
theorem C37_exact_partial (cfg : Cfg) (n dims len : Nat) (data : Option (Buf F)) (hasOut : Bool) (w : World) (hp : n ≤ cfg.pointMax → dims ≤ 65535 → n * dims < 2 ^ 64) :
    DataSetExact cfg n dims len data hasOut w := by
  suffices hw : WpM (initDataSet cfg n dims len data hasOut) w fun r w' =>
      (hasOut = true ∧ GoodData cfg n dims len data →
        r.1 = .ok ∧ (∃ ob, r.2 = some ob ∧ ob.ds.n = n ∧ ob.ds.dims = dims ∧ ob.ds.data = data ∧ ob.ds.isInitialized = true ∧ ob.id ∉ w.live ∧ w'.live = {ob.id} + w.live) ∨
        r.1 = .noMemory ∧ ¬ w.NoFail ∧ r.2 = none ∧ w'.live = w.live ∧ w'.err.code = r.1) ∧
      (¬ (hasOut = true ∧ GoodData cfg n dims len data) → r.1 ≠ .ok ∧ r.1 ≠ .noMemory ∧ r.2 = none ∧ w'.live = w.live ∧ w'.err.code = r.1) by
    obtain ⟨⟨e, p⟩, w', h1, h2⟩ := hw
    exact ⟨e, p, w', h1, h2⟩
  unfold initDataSet
  cases hasOut with
  | false => rw [if_pos (by rfl)]; exact dataSet_err (by decide) (by simp)
  | true =>
    rw [if_neg (by simp)]
    by_cases h1 : n = 0
    · rw [if_pos h1]; exact dataSet_err (by decide) (by intro h; have := h.2.points.1; omega)
    rw [if_neg h1]
    by_cases h2 : cfg.pointMax < n
    · rw [if_pos h2]; exact dataSet_err (by decide) (by intro h; have := h.2.points.2.1; omega)
    rw [if_neg h2]
    by_cases h3 : cfg.sizeMax - 1 < n
    · rw [if_pos h3]; exact dataSet_err (by decide) (by intro h; have := h.2.points.2.2; omega)
    rw [if_neg h3]
    by_cases h4 : dims = 0
    · rw [if_pos h4]; exact dataSet_err (by decide) (by intro h; have := h.2.dimensions.1; omega)
    rw [if_neg h4]
    by_cases h5 : 65535 < dims
    · rw [if_pos h5]; exact dataSet_err (by decide) (by intro h; have := h.2.dimensions.2; omega)
    rw [if_neg h5]
    have hu : u64 (n * dims) = n * dims := Nat.mod_eq_of_lt (hp (by omega) (by omega))
    rw [hu]
    by_cases h6 : len < n * dims
    · rw [if_pos h6]; exact dataSet_err (by decide) (by intro h; have := h.2.length; omega)
    rw [if_neg h6]
    cases data with
    | none => rw [if_pos (by rfl)]; exact dataSet_err (by decide) (by intro h; exact h.2.matrix rfl)
    | some b =>
      rw [if_neg (by simp), wpM_bind]
      have hg : GoodData cfg n dims len (some b) := ⟨⟨by omega, by omega, by omega⟩, ⟨by omega, by omega⟩, nofun, by omega⟩
      refine wpM_allocF (fun w1 hn f1 l1 e1 => ?_) fun i w1 hi f1 l1 e1 => ?_
      · dsimp only
        rw [wpM_bind]
        refine wpM_mkErr fun w2 f2 l2 e2 => ?_
        rw [wpM_pure]
        exact ⟨fun _ => Or.inr ⟨rfl, hn, rfl, by rw [l2, l1], by rw [e2]⟩, fun h => absurd ⟨rfl, hg⟩ h⟩
      · dsimp only
        rw [wpM_pure]
        refine ⟨fun _ => Or.inl ⟨rfl, _, rfl, rfl, rfl, rfl, ?_, hi, l1⟩, fun h => absurd ⟨rfl, hg⟩ h⟩
        simp [DataSet.isInitialized, h1, h4]

/-- Point types of at most 48 bits. -/
theorem C37_exact_48 {cfg : Cfg} (hp : cfg.pointMax < 2 ^ 48) (n dims len : Nat) (data : Option (Buf F)) (hasOut : Bool) (w : World) : DataSetExact cfg n dims len data hasOut w :=
  C37_exact_partial cfg n dims len data hasOut w fun h1 h2 => by
    have : n * dims ≤ cfg.pointMax * 65535 := Nat.mul_le_mul h1 h2
    omega

/-- A data set that was made from a matrix with `len` entries has all coordinates of all points; the searches use nothing else of the matrix (C21 to C25). -/
theorem C37_complete_partial [FloatOps F] {cfg : Cfg} {n dims len : Nat} {b : Buf F} {w w' : World} {ob : DsObj F} (hp : n ≤ cfg.pointMax → dims ≤ 65535 → n * dims < 2 ^ 64)
    (hb : ∀ i, i < len → ∃ x, b.get i = some x) (hr : initDataSet cfg n dims len (some b) true w = some ((.ok, some ob), w')) : ob.ds.Complete := by
  obtain ⟨e, p, w1, h1, h2, h3⟩ := C37_exact_partial cfg n dims len (some b) true w hp
  rw [hr] at h1
  cases h1
  by_cases hg : true = true ∧ GoodData cfg n dims len (some b)
  · rcases h2 hg with ⟨-, ob', he, g1, g2, g3, -⟩ | ⟨h, -⟩
    · cases he
      intro i hi
      rw [g1, g2] at hi
      have : ob.ds.buf = b := by unfold DataSet.buf; rw [g3]; rfl
      rw [this]
      exact hb i (lt_of_lt_of_le hi hg.2.length)
    · cases h
  · exact absurd rfl (h3 hg).1

/-- A matrix of six numbers is a data set of three points with two coordinates, but not of four such points. -/
example : (∃ ob w', initDataSet sampleCfg 3 2 6 (some (Buf.ofList [0, 1, 2, 3, 4, 5] : Buf Int)) true (sampleWorld []) = some ((.ok, some ob), w')) ∧
    (∃ w', initDataSet sampleCfg 4 2 6 (some (Buf.ofList [0, 1, 2, 3, 4, 5] : Buf Int)) true (sampleWorld []) = some ((.invalidInput, none), w')) := ⟨⟨_, _, rfl⟩, ⟨_, rfl⟩⟩

example : GoodData sampleCfg 3 2 6 (some (Buf.ofList [0, 1, 2, 3, 4, 5] : Buf Int)) := ⟨by decide, by decide, nofun, by decide⟩

/-- With 64-bit point indices the product can overflow: a data set of 2^62 points with four coordinates is accepted with a matrix of length zero. -/
theorem C37_fails : ∃ (cfg : Cfg) (n dims len : Nat) (data : Option (Buf Int)) (w : World), cfg.Valid ∧ ¬ DataSetExact cfg n dims len data true w := by
  refine ⟨⟨2 ^ 64 - 1, 2 ^ 64 - 1, 2 ^ 31 - 1, -2 ^ 31, 2 ^ 64 - 1, 2 ^ 64 - 1, false, false⟩, 2 ^ 62, 4, 0, some (Buf.raw 0), sampleWorld [], ⟨by decide, by decide, by decide, by decide, by decide⟩, ?_⟩
  rintro ⟨e, p, w', h1, -, h3⟩
  have h0 : initDataSet ⟨2 ^ 64 - 1, 2 ^ 64 - 1, 2 ^ 31 - 1, -2 ^ 31, 2 ^ 64 - 1, 2 ^ 64 - 1, false, false⟩ (2 ^ 62) 4 0 (some (Buf.raw 0 : Buf Int)) true (sampleWorld []) = some ((.ok, some _), _) := rfl
  rw [h0] at h1
  cases h1
  exact (h3 fun h => by have := h.2.length; omega).1 rfl

/-! ### C40 -/

theorem snprintf_spec {len : Nat} {text : String} {buf : Buf Char} (hlen : 0 < len) (hb : len ≤ buf.len) :
    Wp (snprintf len text buf) fun b => b.len = buf.len ∧ (∀ i, i < min (len - 1) text.toList.length → b.get i = text.toList[i]?) ∧
      b.get (min (len - 1) text.toList.length) = some (Char.ofNat 0) ∧ ∀ i, min (len - 1) text.toList.length < i → b.get i = buf.get i := by
  unfold snprintf
  dsimp only
  have hl : (text.toList.take (len - 1)).length = min (len - 1) text.toList.length := List.length_take
  rw [hl, wp_bind]
  refine wp_forLt (fun i b => b.len = buf.len ∧ (∀ j, j < i → b.get j = text.toList[j]?) ∧ ∀ j, i ≤ j → b.get j = buf.get j) (Nat.zero_le _) ⟨rfl, by simp, by simp⟩ ?_ ?_
  · rintro i b _ hi ⟨h1, h2, h3⟩
    rw [Buf.wp_set]
    refine ⟨by omega, by simpa using h1, fun j hj => ?_, fun j hj => ?_⟩
    · by_cases hji : j = i
      · subst hji
        rw [Buf.get_upd_self _ _ (by omega), List.getD_eq_getElem?_getD, List.getElem?_take, if_pos (by omega), List.getElem?_eq_getElem (by omega)]
        rfl
      · rw [Buf.get_upd_ne _ _ hji]; exact h2 j (by omega)
    · rw [Buf.get_upd_ne _ _ (by omega)]; exact h3 j (by omega)
  · rintro b ⟨h1, h2, h3⟩
    rw [Buf.wp_set]
    refine ⟨by omega, by simpa using h1, fun j hj => ?_, ?_, fun j hj => ?_⟩
    · rw [Buf.get_upd_ne _ _ (by omega)]; exact h2 j hj
    · rw [Buf.get_upd_self _ _ (by omega)]
    · rw [Buf.get_upd_ne _ _ (by omega)]; exact h3 j (by omega)

/-- `scc_get_latest_error` with a buffer of `len > 0` characters: it stores the text that describes the error record, cut to `len - 1` characters, and a terminating NUL.
Nothing is written behind the NUL, so at most `len` characters are written. Nothing else changes. -/
theorem C40_get {len : Nat} {b : Buf Char} (w : World) (hlen : 0 < len) (hb : len ≤ b.len) :
    ∃ b', getLatestError len (some b) w = some ((true, some b'), w) ∧ b'.len = b.len ∧
      ∃ m, m < len ∧ m = min (len - 1) (errText w.err).toList.length ∧ (∀ i, i < m → b'.get i = (errText w.err).toList[i]?) ∧ b'.get m = some (Char.ofNat 0) ∧
        ∀ i, m < i → b'.get i = b.get i := by
  obtain ⟨b', h1, h2, h3, h4, h5⟩ := snprintf_spec (text := errText w.err) hlen hb
  refine ⟨b', ?_, h2, _, by omega, rfl, h3, h4, h5⟩
  unfold getLatestError
  dsimp only
  rw [if_neg (by omega), h1]
  rfl

/-- Without a buffer, or with an empty one, nothing is written. -/
theorem C40_get_none (len : Nat) (buf : Option (Buf Char)) (w : World) (h : len = 0 ∨ buf = none) : getLatestError len buf w = some ((false, buf), w) := by
  unfold getLatestError
  cases buf with
  | none => rfl
  | some b =>
    rcases h with h | h
    · dsimp only; rw [if_pos h]
    · cases h

/-- The text that describes an error is the one of the most recently raised error: where it was raised and its message, or if it has none the message for its code. -/
theorem C40_text (ec : ErrorCode) (hec : ec ≠ .ok) (file : String) (line : Nat) (msg : Option String) (w : World) :
    ∃ w', mkErr ec file line msg w = some (ec, w') ∧ w'.live = w.live ∧
      errText w'.err = "(scclust:" ++ file ++ ":" ++ toString line ++ ") " ++ (match msg with | some m => m | none => defaultMsg ec) := by
  refine ⟨_, rfl, rfl, ?_⟩
  unfold errText
  dsimp only
  rw [if_neg hec]
  cases msg <;> rfl

/-- After a reset, and at the start, the text says that there is no error. -/
theorem C40_text_reset (w : World) : ∃ w', resetErr w = some ((), w') ∧ errText w'.err = "(scclust) No error." ∧ errText ErrInfo.none = "(scclust) No error." := ⟨_, rfl, rfl, rfl⟩

/-- In a history of calls, a call that fails leaves an error with the code that it returned, and a call that succeeds, other than of `scc_sc_clustering`, leaves the latest
error as it was. -/
theorem C40_history [FloatOps F] {cfg : Cfg} (hcfg : cfg.Valid) {U : Multiset Nat} {w0 w w' : World} {codes : List ErrorCode} {objs objs' : List ClObj} {e : ErrorCode}
    (h : Reaches F cfg U w0 codes objs w) (op : Op F) (ha : op.Allowed cfg U objs w) (hr : op.run cfg objs w = some ((e, objs'), w')) :
    (e ≠ .ok → w'.err.code = e) ∧ (e = .ok → op.isCluster = false → w'.err = w.err) := by
  obtain ⟨r, w1, h1, h2⟩ := step_ok hcfg (reaches_inv hcfg h) op ha
  rw [hr] at h1
  cases h1
  exact ⟨h2.err, h2.keep⟩

/-- So if the most recent call of a history failed, the latest error has its code. -/
theorem C40_last [FloatOps F] {cfg : Cfg} (hcfg : cfg.Valid) {U : Multiset Nat} {w0 w : World} {codes : List ErrorCode} {objs : List ClObj} {e : ErrorCode}
    (h : Reaches F cfg U w0 (e :: codes) objs w) (he : e ≠ .ok) : w.err.code = e := by
  cases h with
  | step op h ha hr => exact (C40_history hcfg h op ha hr).1 he

/-- A failed call, and the message for it in a buffer of 30 characters. -/
example : ∃ w w', initEmpty sampleCfg 0 none true (sampleWorld []) = some ((.invalidInput, none), w) ∧
    (∃ b, getLatestError 30 (some (Buf.raw 40)) w = some ((true, some b), w') ∧ ((List.range 31).map b.get).filterMap _root_.id = "(scclust:src/scclust.c:60) Clu".toList.take 29 ++ [Char.ofNat 0]) :=
  ⟨_, _, rfl, _, rfl, by decide +kernel⟩

/-! ### C41 -/

variable {P : Type}

/-- The result of `scc_set_dist_functions`: it returns true exactly if of each triple all functions are given or none. -/
theorem C41_returns (a : DistFunArgs P) (cur : DistFuns P) :
    (setDistFunctions a cur).1 = (allOrNone a.initMax a.getMax a.closeMax && allOrNone a.initNN a.nnSearch a.closeNN) := by
  obtain ⟨a1, a2, a3, a4, a5, a6, a7, a8, a9, a10⟩ := a
  cases a5 <;> cases a6 <;> cases a7 <;> cases a8 <;> cases a9 <;> cases a10 <;> rfl

/-- When it returns true, the functions in use are the given ones, and for those that were not given the ones before. -/
theorem C41_set_ok (a : DistFunArgs P) (cur : DistFuns P) (h : (setDistFunctions a cur).1 = true) :
    (setDistFunctions a cur).2 = ⟨a.checkDataSet.getD cur.checkDataSet, a.numDataPoints.getD cur.numDataPoints, a.getDistMatrix.getD cur.getDistMatrix,
      a.getDistRows.getD cur.getDistRows, a.initMax.getD cur.initMax, a.getMax.getD cur.getMax, a.closeMax.getD cur.closeMax, a.initNN.getD cur.initNN,
      a.nnSearch.getD cur.nnSearch, a.closeNN.getD cur.closeNN⟩ := by
  obtain ⟨a1, a2, a3, a4, a5, a6, a7, a8, a9, a10⟩ := a
  cases a5 <;> cases a6 <;> cases a7 <;> cases a8 <;> cases a9 <;> cases a10 <;>
    first
    | (cases h; done)
    | (cases a1 <;> cases a2 <;> cases a3 <;> cases a4 <;> rfl)

/-- Reset restores all defaults. -/
theorem C41_reset (imp : DistFuns P) (ops : List (RegOp P)) : registered imp (.reset :: ops) = imp := rfl

theorem set_nn (a : DistFunArgs P) (cur : DistFuns P) : (setDistFunctions a cur).2.nn = cur.nn ∨
    ∃ f g h, a.initNN = some f ∧ a.nnSearch = some g ∧ a.closeNN = some h ∧ (setDistFunctions a cur).2.nn = (f, g, h) := by
  obtain ⟨a1, a2, a3, a4, a5, a6, a7, a8, a9, a10⟩ := a
  cases a5 <;> cases a6 <;> cases a7 <;> cases a8 <;> cases a9 <;> cases a10 <;>
    first
    | (left; cases a1 <;> cases a2 <;> cases a3 <;> cases a4 <;> rfl)
    | (right; exact ⟨_, _, _, rfl, rfl, rfl, rfl⟩)

theorem set_max (a : DistFunArgs P) (cur : DistFuns P) : (setDistFunctions a cur).2.max = cur.max ∨
    ∃ f g h, a.initMax = some f ∧ a.getMax = some g ∧ a.closeMax = some h ∧ (setDistFunctions a cur).2.max = (f, g, h) := by
  obtain ⟨a1, a2, a3, a4, a5, a6, a7, a8, a9, a10⟩ := a
  cases a5 <;> cases a6 <;> cases a7 <;> cases a8 <;> cases a9 <;> cases a10 <;>
    first
    | (left; cases a1 <;> cases a2 <;> cases a3 <;> cases a4 <;> rfl)
    | (right; exact ⟨_, _, _, rfl, rfl, rfl, rfl⟩)

/-- After any history the nearest neighbour functions in use are the three defaults or the three arguments of one call, never a mixture. -/
theorem C41_nn_never_mixed (imp : DistFuns P) (ops : List (RegOp P)) :
    (registered imp ops).nn = imp.nn ∨ ∃ a f g h, RegOp.set a ∈ ops ∧ a.initNN = some f ∧ a.nnSearch = some g ∧ a.closeNN = some h ∧ (registered imp ops).nn = (f, g, h) := by
  induction ops with
  | nil => exact Or.inl rfl
  | cons op ops ih =>
    cases op with
    | reset => exact Or.inl rfl
    | set a =>
      rcases set_nn a (registered imp ops) with h | ⟨f, g, h, h1, h2, h3, h4⟩
      · rcases ih with ih | ⟨a', f, g, h', h0, h1, h2, h3, h4⟩
        · exact Or.inl (h.trans ih)
        · exact Or.inr ⟨a', f, g, h', List.mem_cons_of_mem _ h0, h1, h2, h3, h.trans h4⟩
      · exact Or.inr ⟨a, f, g, h, List.mem_cons_self, h1, h2, h3, h4⟩

/-- The same for the functions that search for the farthest points. -/
theorem C41_max_never_mixed (imp : DistFuns P) (ops : List (RegOp P)) :
    (registered imp ops).max = imp.max ∨ ∃ a f g h, RegOp.set a ∈ ops ∧ a.initMax = some f ∧ a.getMax = some g ∧ a.closeMax = some h ∧ (registered imp ops).max = (f, g, h) := by
  induction ops with
  | nil => exact Or.inl rfl
  | cons op ops ih =>
    cases op with
    | reset => exact Or.inl rfl
    | set a =>
      rcases set_max a (registered imp ops) with h | ⟨f, g, h, h1, h2, h3, h4⟩
      · rcases ih with ih | ⟨a', f, g, h', h0, h1, h2, h3, h4⟩
        · exact Or.inl (h.trans ih)
        · exact Or.inr ⟨a', f, g, h', List.mem_cons_of_mem _ h0, h1, h2, h3, h.trans h4⟩
      · exact Or.inr ⟨a, f, g, h, List.mem_cons_self, h1, h2, h3, h4⟩

/-- Ten distinct functions, and arguments that replace some of them. -/
def sampleFuns : DistFuns Nat := ⟨0, 1, 2, 3, 4, 5, 6, 7, 8, 9⟩
def sampleArgs : DistFunArgs Nat := ⟨none, some 11, none, none, none, none, none, some 17, some 18, some 19⟩

example : (setDistFunctions sampleArgs sampleFuns).1 = true ∧ (registered sampleFuns [.set ⟨none, none, none, some 23, some 24, none, none, none, none, none⟩, .set sampleArgs]).nn = (17, 18, 19) := by
  decide

/-- The last clause of C41 is false: a call that returns false may have replaced functions, among them a whole triple. -/
theorem C41_fails : ∃ (a : DistFunArgs Nat) (cur : DistFuns Nat), (setDistFunctions a cur).1 = false ∧ (setDistFunctions a cur).2.numDataPoints ≠ cur.numDataPoints ∧
    (setDistFunctions a cur).2.max ≠ cur.max :=
  ⟨⟨none, some 11, none, none, some 14, some 15, some 16, some 17, none, none⟩, sampleFuns, by decide⟩

/-- What is left of it: a call that returns false leaves the nearest neighbour functions unchanged, and a call whose first triple is not acceptable also the functions for the
farthest points. Missing: the other functions. -/
theorem C41_false_partial (a : DistFunArgs P) (cur : DistFuns P) (h : (setDistFunctions a cur).1 = false) :
    (setDistFunctions a cur).2.nn = cur.nn ∧ (allOrNone a.initMax a.getMax a.closeMax = false → (setDistFunctions a cur).2.max = cur.max) := by
  obtain ⟨a1, a2, a3, a4, a5, a6, a7, a8, a9, a10⟩ := a
  cases a5 <;> cases a6 <;> cases a7 <;> cases a8 <;> cases a9 <;> cases a10 <;>
    first
    | (cases h; done)
    | (refine ⟨?_, fun h' => ?_⟩ <;> first | (cases h'; done) | (cases a1 <;> cases a2 <;> cases a3 <;> cases a4 <;> rfl))

end Scc
