/-
Building nearest neighbour digraphs from searches: the row array, and the digraph as a function of the answers.
-/
import Verif.Spec.Nng
import Verif.Model.NngClustering
import Verif.Spec.Labels
import Verif.Proofs.DigraphM
import Verif.Proofs.SeedsBasic
import Mathlib.Tactic.Ring

set_option linter.unusedSimpArgs false
set_option linter.unusedVariables false

namespace Scc

/-! ### Counting the queries before a vertex -/

theorem countP_lt_eq {Q : List Nat} {j v : Nat} (hj : j ≤ Q.length) (h1 : ∀ i x, i < j → Q[i]? = some x → x < v)
    (h2 : ∀ i x, j ≤ i → Q[i]? = some x → v ≤ x) : Q.countP (· < v) = j := by
  have hs : Q = Q.take j ++ Q.drop j := (List.take_append_drop j Q).symm
  rw [hs, List.countP_append]
  have a : (Q.take j).countP (· < v) = j := by
    rw [List.countP_eq_length.2, List.length_take, min_eq_left hj]
    intro x hx
    obtain ⟨i, hi⟩ := List.mem_iff_getElem?.1 hx
    rw [List.getElem?_take] at hi
    split at hi
    · rename_i hij; simpa using h1 i x hij hi
    · simp at hi
  have b : (Q.drop j).countP (· < v) = 0 := by
    rw [List.countP_eq_zero]
    intro x hx
    obtain ⟨i, hi⟩ := List.mem_iff_getElem?.1 hx
    rw [List.getElem?_drop] at hi
    simpa using h2 (j + i) x (by omega) hi
  rw [a, b]; rfl

theorem sorted_get_lt {Q : List Nat} (hs : Q.Pairwise (· < ·)) {i j x y : Nat} (hij : i < j) (hx : Q[i]? = some x) (hy : Q[j]? = some y) : x < y := by
  obtain ⟨hi, rfl⟩ := List.getElem?_eq_some_iff.1 hx
  obtain ⟨hj, rfl⟩ := List.getElem?_eq_some_iff.1 hy
  exact List.pairwise_iff_getElem.1 hs i j hi hj hij

theorem countP_lt_get {Q : List Nat} (hs : Q.Pairwise (· < ·)) {j x : Nat} (hx : Q[j]? = some x) : Q.countP (· < x) = j := by
  have hj : j < Q.length := (List.getElem?_eq_some_iff.1 hx).1
  refine countP_lt_eq hj.le (fun i y hi hy => sorted_get_lt hs hi hy hx) (fun i y hi hy => ?_)
  rcases Nat.lt_or_eq_of_le hi with h | rfl
  · exact (sorted_get_lt hs h hx hy).le
  · rw [hx] at hy; exact (Option.some.inj hy).le

/-- The row array: the first arc of vertex `v` comes after the arcs of all smaller queries, `k` each. -/
def TailsTo (k : Nat) (Q : List Nat) (tail : Buf Nat) (i : Nat) : Prop := ∀ v, v ≤ i → tail.get v = some (k * Q.countP (· < v))

theorem TailsTo.snoc {k : Nat} {Q : List Nat} {tail : Buf Nat} {i x : Nat} (h : TailsTo k Q tail i) (hl : i + 1 < tail.len)
    (hx : x = k * Q.countP (· < i + 1)) : TailsTo k Q (tail.upd (i + 1) x) (i + 1) := by
  intro v hv
  rcases Nat.lt_or_eq_of_le hv with h1 | rfl
  · rw [Buf.get_upd_ne _ _ (by omega)]; exact h v (by omega)
  · rw [Buf.get_upd_self _ _ hl, hx]

theorem tailsByQueries_spec {n k : Nat} {Q : List Nat} {q tail : Buf Nat} (hs : Q.Pairwise (· < ·)) (hr : ∀ x ∈ Q, x < n) (hq : Pre q Q)
    (hl : tail.len = n + 1) (h0 : tail.get 0 = some 0) :
    Wp (tailsByQueries k Q.length q tail) fun r => r.1.len = n + 1 ∧ 1 ≤ r.2 ∧ r.2 ≤ n + 1 ∧ TailsTo k Q r.1 (r.2 - 1) ∧ ∀ x ∈ Q, x < r.2 - 1 := by
  unfold tailsByQueries
  rw [wp_bind]
  refine wp_forLt (fun j st => st.1.len = n + 1 ∧ st.2.1 = st.2.2 + 1 ∧ st.2.2 ≤ n ∧ TailsTo k Q st.1 st.2.2 ∧
    (∀ i x, i < j → Q[i]? = some x → x < st.2.2) ∧ ∀ i x, j ≤ i → Q[i]? = some x → st.2.2 ≤ x) (Nat.zero_le _) ?_ ?_ ?_
  · refine ⟨hl, rfl, Nat.zero_le _, fun v hv => ?_, fun i x hi => by omega, fun _ _ _ _ => Nat.zero_le _⟩
    obtain rfl : v = 0 := by simpa using hv
    show tail.get 0 = _
    rw [h0, show Q.countP (· < 0) = 0 by simp]; rfl
  · rintro j ⟨t, wt, i⟩ - hj ⟨a1, a2, a3, a4, a5, a6⟩
    dsimp only at a1 a2 a3 a4 a5 a6 ⊢
    have hp := List.getElem?_eq_getElem hj
    generalize Q[j] = p at hp
    have hpn : p < n := hr p (List.mem_of_getElem? hp)
    have hip : i ≤ p := a6 j p le_rfl hp
    rw [wp_bind, wp_eq (hq j p hp), wp_bind]
    have hcnt : ∀ v, i ≤ v → v ≤ p → Q.countP (· < v) = j := fun v h1 h2 =>
      countP_lt_eq hj.le (fun i' x hi' hx => lt_of_lt_of_le (a5 i' x hi' hx) h1) (fun i' x hi' hx => by
        rcases Nat.lt_or_eq_of_le hi' with h | rfl
        · exact h2.trans (sorted_get_lt hs h hp hx).le
        · rw [hp] at hx; rw [← Option.some.inj hx]; exact h2)
    refine wp_forLt (fun i' st => st.1.len = n + 1 ∧ st.2 = i' + 1 ∧ TailsTo k Q st.1 i') hip ⟨a1, a2, a4⟩ ?_ ?_
    · rintro i' ⟨t', wt'⟩ h1 h2 ⟨b1, b2, b3⟩
      dsimp only at b1 b2 b3 ⊢
      subst b2
      rw [wp_bind, wp_eq (b3 _ (show i' + 1 - 1 ≤ i' by omega)), wp_bind, Buf.wp_set]
      refine ⟨by omega, ?_⟩
      rw [wp_pure]
      refine ⟨b1, rfl, b3.snoc (by omega) ?_⟩
      rw [show i' + 1 - 1 = i' by omega, hcnt i' h1 h2.le, hcnt (i' + 1) (by omega) h2]
    · rintro ⟨t', wt'⟩ ⟨b1, b2, b3⟩
      dsimp only at b1 b2 b3 ⊢
      subst b2
      rw [wp_bind, wp_eq (b3 _ (show p + 1 - 1 ≤ p by omega)), wp_bind, Buf.wp_set]
      refine ⟨by omega, ?_⟩
      rw [wp_pure]
      have hmax : max i p = p := by omega
      dsimp only
      rw [hmax]
      have hlt : ∀ i' x, i' < j + 1 → Q[i']? = some x → x < p + 1 := by
        intro i' x h1 hx
        rcases Nat.lt_or_eq_of_le (Nat.lt_succ_iff.1 h1) with h | rfl
        · have := sorted_get_lt hs h hx hp; omega
        · rw [hp] at hx; have := Option.some.inj hx; omega
      have hge : ∀ i' x, j + 1 ≤ i' → Q[i']? = some x → p + 1 ≤ x := fun i' x h1 hx => sorted_get_lt hs (by omega) hp hx
      refine ⟨b1, rfl, by omega, b3.snoc (by omega) ?_, hlt, hge⟩
      rw [show p + 1 - 1 = p by omega, hcnt p hip le_rfl, countP_lt_eq hj hlt hge]; exact (Nat.mul_succ _ _).symm
  · rintro ⟨t, wt, i⟩ ⟨a1, a2, a3, a4, a5, a6⟩
    dsimp only at a1 a2 a3 a4 a5 a6 ⊢
    rw [wp_pure]
    subst a2
    refine ⟨a1, by simp, by simpa using a3, by simpa using a4, fun x hx => ?_⟩
    obtain ⟨i', hi'⟩ := List.mem_iff_getElem?.1 hx
    have := a5 i' x (List.getElem?_eq_some_iff.1 hi').1 hi'
    simpa using this

theorem countP_lt_range {n v : Nat} (hv : v ≤ n) : (List.range n).countP (· < v) = v := by
  refine countP_lt_eq (by simpa using hv) (fun i x hi hx => ?_) (fun i x hi hx => ?_) <;>
  · rw [List.getElem?_range] at hx
    · have := Option.some.inj hx; omega
    · by_contra hc; rw [List.getElem?_eq_none (by simp; omega)] at hx; simp at hx

theorem tailsAll_spec {n k : Nat} {tail : Buf Nat} (hl : tail.len = n + 1) (h0 : tail.get 0 = some 0) :
    Wp (tailsAll k n tail) fun r => r.1.len = n + 1 ∧ 1 ≤ r.2 ∧ r.2 ≤ n + 1 ∧ TailsTo k (List.range n) r.1 (r.2 - 1) ∧ ∀ x ∈ List.range n, x < r.2 - 1 := by
  unfold tailsAll
  refine wp_forLt (fun i st => st.1.len = n + 1 ∧ st.2 = i + 1 ∧ TailsTo k (List.range n) st.1 i) (Nat.zero_le _) ⟨hl, rfl, fun v hv => ?_⟩ ?_ ?_
  · obtain rfl : v = 0 := by simpa using hv
    show tail.get 0 = _
    rw [h0, countP_lt_range (Nat.zero_le _)]; rfl
  · rintro i ⟨t, wt⟩ - hi ⟨b1, b2, b3⟩
    dsimp only at b1 b2 b3 ⊢
    subst b2
    rw [wp_bind, wp_eq (b3 _ (show i + 1 - 1 ≤ i by omega)), wp_bind, Buf.wp_set]
    refine ⟨by omega, ?_⟩
    rw [wp_pure]
    refine ⟨b1, rfl, b3.snoc (by omega) ?_⟩
    rw [show i + 1 - 1 = i by omega, countP_lt_range hi.le, countP_lt_range hi]; exact (Nat.mul_succ _ _).symm
  · rintro ⟨t, wt⟩ ⟨b1, b2, b3⟩
    dsimp only at b1 b2 b3 ⊢
    subst b2
    exact ⟨b1, by simp, by simp, by simpa using b3, fun x hx => by simpa using hx⟩

/-- The answered queries are given by an array, or all points are answered queries. -/
def OkQueries (n lenQ : Nat) (okq : Option (Buf Nat)) (Q : List Nat) : Prop :=
  match okq with
  | some q => Pre q Q
  | none => lenQ = n ∧ Q = List.range n

theorem writeTails_spec {n k lenQ : Nat} {Q : List Nat} {okq : Option (Buf Nat)} {tail : Buf Nat} (hs : Q.Pairwise (· < ·)) (hr : ∀ x ∈ Q, x < n)
    (hq : OkQueries n lenQ okq Q) (hl : tail.len = n + 1) :
    Wp (writeTails n k lenQ Q.length okq tail) fun t => t.len = n + 1 ∧ TailsTo k Q t n := by
  unfold writeTails
  rw [wp_bind, Buf.wp_set]
  refine ⟨by omega, ?_⟩
  rw [wp_bind]
  have hl' : (tail.upd 0 0).len = n + 1 := hl
  have h0 : (tail.upd 0 0).get 0 = some 0 := Buf.get_upd_self _ _ (by omega)
  have key : Wp (tailRows k lenQ Q.length okq (tail.upd 0 0)) fun r => r.1.len = n + 1 ∧ 1 ≤ r.2 ∧ r.2 ≤ n + 1 ∧ TailsTo k Q r.1 (r.2 - 1) ∧ ∀ x ∈ Q, x < r.2 - 1 := by
    unfold tailRows
    cases okq with
    | some q => exact tailsByQueries_spec hs hr hq hl' h0
    | none =>
      obtain ⟨rfl, rfl⟩ := hq
      exact tailsAll_spec hl' h0
  refine key.mono ?_
  rintro ⟨t, wt⟩ ⟨a1, a2, a3, a4, a5⟩
  dsimp only at a1 a2 a3 a4 a5 ⊢
  refine wp_forLt (fun i t => t.len = n + 1 ∧ TailsTo k Q t (i - 1)) a3 ⟨a1, a4⟩ ?_ ?_
  · intro i t h1 h2 ⟨b1, b2⟩
    rw [wp_bind, wp_eq (b2 (i - 1) le_rfl), Buf.wp_set]
    refine ⟨by omega, b1, ?_⟩
    have := (b2.snoc (x := k * Q.countP (· < i - 1)) (by omega) ?_)
    · rw [show i - 1 + 1 = i by omega] at this
      simpa using this
    · congr 1
      refine List.countP_congr fun x hx => ?_
      have := a5 x hx
      simp; omega
  · intro t ⟨b1, b2⟩
    exact ⟨b1, by simpa using b2⟩

/-! ### The answers as a function of the query -/

/-- The answers to the queries `Q` as a function: the answer for `q` is `ans q`. -/
theorem answers_fun {res : List (Nat × Option (List Nat))} (hn : (res.map Prod.fst).Nodup) :
    ∃ ans : Nat → Option (List Nat), (∀ p ∈ res, ans p.1 = p.2) ∧ (∀ v, v ∉ res.map Prod.fst → ans v = none) := by
  induction res with
  | nil => exact ⟨fun _ => none, by simp, by simp⟩
  | cons p res ih =>
    rw [List.map_cons, List.nodup_cons] at hn
    obtain ⟨ans, h1, h2⟩ := ih hn.2
    refine ⟨fun v => if v = p.1 then p.2 else ans v, fun p' hp' => ?_, fun v hv => ?_⟩
    · rcases List.mem_cons.1 hp' with rfl | hp'
      · simp
      · have : p'.1 ≠ p.1 := fun h => hn.1 (h ▸ List.mem_map_of_mem hp')
        simp only [if_neg this]; exact h1 p' hp'
    · simp only [List.map_cons, List.mem_cons, not_or] at hv
      simp only [if_neg hv.1]; exact h2 v hv.2

/-- The queries that have an answer. -/
def okOf (ans : Nat → Option (List Nat)) (Q : List Nat) : List Nat := Q.filter fun q => (ans q).isSome

theorem answered_eq {res : List (Nat × Option (List Nat))} {ans : Nat → Option (List Nat)} (h : ∀ p ∈ res, ans p.1 = p.2) :
    answered res = (okOf ans (res.map Prod.fst)).map fun q => (q, ansRows ans q) := by
  induction res with
  | nil => rfl
  | cons p res ih =>
    have ih := ih fun p' hp' => h p' (List.mem_cons_of_mem _ hp')
    have hp := h p List.mem_cons_self
    unfold answered okOf at ih ⊢
    rw [List.map_cons, List.filterMap_cons, List.filter_cons, hp]
    rcases p with ⟨q, _ | l⟩
    · simpa using ih
    · simp only [Option.map_some, Option.isSome_some, if_true, List.map_cons]
      rw [ih]
      have : ansRows ans q = l := by simp only at hp; simp [ansRows, hp]
      rw [this]

theorem off_ansRows {ans : Nat → Option (List Nat)} {Q : List Nat} {k : Nat} (hs : Q.Pairwise (· < ·)) (hlen : ∀ q l, ans q = some l → l.length = k)
    (hnone : ∀ v, v ∉ Q → ans v = none) (v : Nat) : off (ansRows ans) v = k * (okOf ans Q).countP (· < v) := by
  induction v with
  | zero => simp [off]
  | succ v ih =>
    show off (ansRows ans) v + (ansRows ans v).length = _
    rw [ih]
    have hs' : (okOf ans Q).Pairwise (· < ·) := hs.filter _
    have hnd : (okOf ans Q).Nodup := hs'.imp fun h => Nat.ne_of_lt h
    have hsplit : (okOf ans Q).countP (· < v + 1) = (okOf ans Q).countP (· < v) + (okOf ans Q).count v := by
      generalize okOf ans Q = l
      induction l with
      | nil => rfl
      | cons a l ih =>
        rw [List.countP_cons, List.countP_cons, List.count_cons, ih]
        by_cases h1 : a = v
        · subst h1; simp; omega
        · by_cases h2 : a < v
          · have : a < v + 1 := by omega
            simp [h1, h2, this]; omega
          · have : ¬ a < v + 1 := by omega
            simp [h1, h2, this]
    rw [hsplit, Nat.mul_add]
    congr 1
    by_cases hv : v ∈ okOf ans Q
    · rw [List.count_eq_one_of_mem hnd hv]
      obtain ⟨-, hv2⟩ := List.mem_filter.1 hv
      obtain ⟨l, hl⟩ := Option.isSome_iff_exists.1 hv2
      simp [ansRows, hl, hlen v l hl]
    · rw [List.count_eq_zero_of_not_mem hv]
      have : ans v = none := by
        by_contra hc
        refine hv (List.mem_filter.2 ⟨?_, Option.isSome_iff_ne_none.2 hc⟩)
        by_contra hQ
        exact hc (hnone v hQ)
      simp [ansRows, this]

/-- The arrays hold the digraph given by the answers. -/
theorem csr_of_answers {n k : Nat} {ans : Nat → Option (List Nat)} {Q : List Nat} {head tail : Buf Nat} (hs : Q.Pairwise (· < ·))
    (hQ : ∀ q ∈ Q, q < n) (hlen : ∀ q l, ans q = some l → l.length = k) (hrange : ∀ q l, ans q = some l → ∀ x ∈ l, x < n)
    (hnone : ∀ v, v ∉ Q → ans v = none) (ht : TailsTo k (okOf ans Q) tail n)
    (hh : ∀ (i q : Nat), (okOf ans Q)[i]? = some q → ∀ (j x : Nat), (ansRows ans q)[j]? = some x → head.get (i * k + j) = some x) :
    Csr n head tail (ansRows ans) := by
  refine ⟨fun v hv => ?_, fun v hv j a hj => ?_, fun v hv a ha => ?_⟩
  · rw [ht v hv, off_ansRows hs hlen hnone v]
  · have hv' : v ∈ okOf ans Q := by
      have hne : ans v ≠ none := by intro h; simp [ansRows, h] at hj
      refine List.mem_filter.2 ⟨?_, Option.isSome_iff_ne_none.2 hne⟩
      by_contra hc; exact hne (hnone v hc)
    obtain ⟨i, hi⟩ := List.mem_iff_getElem?.1 hv'
    rw [off_ansRows hs hlen hnone v, countP_lt_get (Q := okOf ans Q) (hs.filter _) hi, Nat.mul_comm]
    exact hh i v hi j a hj
  · cases h : ans v with
    | none => simp [ansRows, h] at ha
    | some l => simp [ansRows, h] at ha; exact hrange v l h a ha

theorem off_ansRows_total {n k : Nat} {ans : Nat → Option (List Nat)} {Q : List Nat} (hs : Q.Pairwise (· < ·)) (hQ : ∀ q ∈ Q, q < n)
    (hlen : ∀ q l, ans q = some l → l.length = k) (hnone : ∀ v, v ∉ Q → ans v = none) : off (ansRows ans) n = (okOf ans Q).length * k := by
  rw [off_ansRows hs hlen hnone, List.countP_eq_length.2, Nat.mul_comm]
  intro x hx
  simpa using hQ x (List.mem_filter.1 hx).1

/-! ### Building the digraph -/

/-- A failing call: nothing leaked, the error is on record, and it has one of the possible causes. -/
structure FailPost (w : World) (cause : ErrorCode → Prop) (e : ErrorCode) (w' : World) : Prop where
  fails : w'.fails = w.fails
  live : w'.live = w.live
  err : w'.err.code = e
  cause : cause e

/-- Causes of failure that have nothing to do with the clustering problem: a digraph that is too large, no memory, or a failing search. -/
def SysCause (w : World) (big mayRefuse : Prop) (e : ErrorCode) : Prop :=
  e = .tooLarge ∧ big ∨ e = .noMemory ∧ ¬ w.NoFail ∨ e = .distSearch ∧ (¬ w.NoFail ∨ mayRefuse)

theorem SysCause.ne_ok {w : World} {big mayRefuse : Prop} {e : ErrorCode} (h : SysCause w big mayRefuse e) : e ≠ .ok := by
  rcases h with ⟨rfl, -⟩ | ⟨rfl, -⟩ | ⟨rfl, -⟩ <;> simp

theorem FailPost.mono {w w' : World} {C D : ErrorCode → Prop} {e : ErrorCode} (h : FailPost w C e w') (hcd : C e → D e) : FailPost w D e w' :=
  ⟨h.fails, h.live, h.err, hcd h.cause⟩

theorem SysCause.imp {w w' : World} {b b' m m' : Prop} {e : ErrorCode} (h : SysCause w b m e) (hw : w.fails = w'.fails) (hb : b → b') (hm : m → m') :
    SysCause w' b' m' e := by
  rcases h with ⟨h1, h2⟩ | ⟨h1, h2⟩ | ⟨h1, h2⟩
  · exact Or.inl ⟨h1, hb h2⟩
  · exact Or.inr (Or.inl ⟨h1, by rwa [noFail_congr hw] at h2⟩)
  · exact Or.inr (Or.inr ⟨h1, h2.imp (by rw [noFail_congr hw]; exact id) hm⟩)

/-- A list of queries in ascending order, given by an array or (NULL) all points. -/
structure QueryInput (w : World) (n lenQ : Nat) (queries : Option Arr) (Q : List Nat) : Prop where
  holds : ArrHolds queries Q
  len : Q.length = lenQ
  sorted : Q.Pairwise (· < ·)
  range : ∀ q ∈ Q, q < n
  pos : 0 < lenQ
  live : ∀ i ∈ arrIds queries, i ∈ w.live
  all : queries = none → lenQ = n

/-- What a successful `iscc_make_nng` delivers. -/
structure NngPost {F : Type} (cfg : Cfg) (A : Criterion F) (w : World) (n : Nat) (L : List Nat) (k : Nat) (rs : Bool) (radius : F) (queries : Option Arr) (Q : List Nat)
    (outQ : OutQ) (ans : Nat → Option (List Nat)) (out : NngOut) (w' : World) : Prop where
  fails : w'.fails = w.fails
  live : w'.live = out.nng.own + w.live
  err : w'.err = w.err
  answers : Answers A L k (if rs then some radius else none) Q ans
  n_eq : out.nng.n = n
  repr : out.nng.Repr cfg (ansRows ans)
  numOk : out.numOk = (okOf ans Q).length
  outQ_len : rs = true → outQ ≠ .null → out.outQ.len = outQ.len queries
  outQ_pre : rs = true → outQ ≠ .null → Pre out.outQ (okOf ans Q)

variable {F : Type} [FloatOps F]

theorem internalOut_spec (rs : Bool) (outQ : OutQ) (lenQ : Nat) (w : World) :
    WpM (internalOut rs outQ lenQ) w (fun r w' => match r with
      | .error e => FailPost w (fun e => e = .noMemory ∧ ¬ w.NoFail) e w'
      | .ok p => w'.fails = w.fails ∧ w'.err = w.err ∧ w'.live = ptrOwn p.2 + w.live ∧
          (rs = false ∧ p.1 = .null ∨ rs = true ∧ (outQ = .null ∧ p.1 = .buf (Buf.raw lenQ) ∨ outQ ≠ .null ∧ p.1 = outQ ))) := by
  unfold internalOut
  cases rs
  · rw [if_neg Bool.false_ne_true, wpM_pure]; simp
  · rw [if_pos rfl]
    cases outQ with
    | null =>
      dsimp only
      rw [wpM_bind]
      refine wpM_alloc (fun w1 hf k1 k2 k3 => ?_) (fun i w1 k1 k2 k3 => ?_)
      · exact wpM_fail fun w2 l1 l2 l3 => ⟨l1.trans k1, l2.trans k2, by rw [l3], rfl, hf⟩
      · dsimp only
        rw [wpM_pure]
        exact ⟨k1, k3, by simpa using k2, Or.inr ⟨rfl, Or.inl ⟨rfl, rfl⟩⟩⟩
    | same => dsimp only; rw [wpM_pure]; simp
    | buf b => dsimp only; rw [wpM_pure]; simp

theorem shrinkNng_spec {cfg : Cfg} {d : Digraph} {n lenQ k numOk : Nat} {rows : Nat → List Nat} {outQ : Buf Nat} {w : World} (L : Multiset Nat)
    (hs : d.Storage cfg n (lenQ * k)) (hc : Csr n (ptrBuf d.head) (ptrBuf d.tail) rows) (hpm : n ≤ cfg.pointMax) (htot : off rows n = numOk * k)
    (hle : numOk ≤ lenQ) (hl : w.live = d.own + L) :
    WpM (shrinkNng cfg d lenQ k numOk outQ) w (fun r w' => w'.fails = w.fails ∧ match r with
      | .error e => w'.live = L ∧ w'.err.code = e ∧ e = .noMemory ∧ ¬ w.NoFail
      | .ok out => w'.live = out.nng.own + L ∧ w'.err = w.err ∧ out.nng.n = n ∧ out.nng.Repr cfg rows ∧ out.numOk = numOk ∧ out.outQ = outQ) := by
  have hle' : numOk * k ≤ lenQ * k := Nat.mul_le_mul_right k hle
  have hrd : d.Repr cfg rows := ⟨by rw [hs.n_eq]; exact hc, by rw [hs.tail_len, hs.n_eq], by rw [hs.head_len, hs.m_eq],
    by rw [hs.n_eq]; exact hpm, by rw [hs.m_eq]; exact hs.arcs, by rw [hs.m_eq]; exact hs.arcs_size, by rw [hs.m_eq]; exact hs.head_null⟩
  unfold shrinkNng
  by_cases hlt : numOk < lenQ
  · rw [if_pos hlt, Nat.mod_eq_of_lt (by have := hs.arcs_size; omega), ← htot, wpM_bind]
    refine (changeArcStorage_spec L hs hc hpm (by omega) hl).mono ?_
    rintro ⟨ec, d'⟩ w1 ⟨a1, a2, a3, a4, a5⟩
    dsimp only at a1 a2 a3 a4 a5 ⊢
    rcases a5 with ⟨rfl, b2, b3⟩ | ⟨rfl, rfl, b3, b4⟩
    · rw [if_neg (by simp), wpM_pure]
      exact ⟨a1, a2, b3, a3, a4, rfl, rfl⟩
    · rw [if_pos (by simp), wpM_bind]
      refine freeDigraph_spec L a2 fun w2 k1 k2 k3 => ?_
      rw [wpM_pure]
      exact ⟨k1.trans a1, k2, by rw [k3, b3], rfl, b4⟩
  · rw [if_neg hlt, wpM_pure]
    exact ⟨rfl, hl, rfl, hs.n_eq, hrd, rfl, rfl⟩

theorem ErrPost.sys {w w' : World} {big m : Prop} {e : ErrorCode} (h : ErrPost w big e w') : SysCause w big m e := by
  rcases h.cause with h | h
  · exact Or.inl h
  · exact Or.inr (Or.inl h)

theorem makeNngFromSearch_spec {cfg : Cfg} {spi : Spi F} {n : Nat} {A : Criterion F} {dist : Nat → Nat → F} {mayRefuse : Prop} (hs : SpiOk spi n A dist mayRefuse)
    {o : spi.NN} {L : List Nat} {own : Multiset Nat} {ids : List Nat} {w : World} {lenQ : Nat} {queries : Option Arr} {Q : List Nat} {k : Nat} (rs : Bool) (radius : F)
    {outQ : OutQ} (hpm : n ≤ cfg.pointMax) (hL : ∀ x ∈ L, x < n) (ho : hs.isNN o L own ids) (hown : own ≤ w.live) (hids : ∀ i ∈ ids, i ∈ w.live)
    (hq : QueryInput w n lenQ queries Q) (hk : 0 < k) (hkl : k ≤ L.length) (hsz : lenQ * k ≤ cfg.sizeMax) (hout : outQ = .null ∨ lenQ ≤ outQ.len queries)
    (hsame : outQ = .same → queries ≠ none) :
    WpM (makeNngFromSearch cfg spi o n lenQ queries k rs radius outQ) w (fun r w' => match r with
      | .error e => FailPost w (SysCause w (cfg.arcMax < lenQ * k) mayRefuse) e w'
      | .ok out => ∃ ans, NngPost cfg A w n L k rs radius queries Q outQ ans out w') := by
  unfold makeNngFromSearch
  rw [wpM_bind]
  refine (internalOut_spec rs outQ lenQ w).mono ?_
  rintro (e | ⟨dq, internal⟩) w1 h
  · dsimp only
    rw [wpM_pure]
    exact h.mono fun hc => Or.inr (Or.inl hc)
  · obtain ⟨a1, a2, a3, a4⟩ := h
    dsimp only at a1 a2 a3 a4 ⊢
    rw [Nat.mod_eq_of_lt (by omega), wpM_bind]
    refine (initDigraph_spec cfg n (lenQ * k) w1).mono ?_
    rintro (e | d) w2 h
    · dsimp only
      rw [wpM_bind]
      refine wpM_freePtr w.live (by rw [h.live, a3]) fun w3 k1 k2 k3 => ?_
      rw [wpM_pure]
      exact ⟨by rw [k1, h.fails, a1], k2, by rw [k3, h.err], (h.sys (m := mayRefuse)).imp a1 (fun hb => by omega) id⟩
    · obtain ⟨b1, b2, b3, b4⟩ := h
      dsimp only
      have hl2 : w2.live = d.own + (ptrOwn internal + w.live) := by rw [b2, a3]
      have hnf : w2.NoFail ↔ w.NoFail := noFail_congr (b1.trans a1)
      have hidl : ∀ i ∈ d.ids ++ ptrIds internal, i ∈ w2.live := by
        intro i hi
        rw [hl2]
        rcases List.mem_append.1 hi with hi | hi
        · exact Multiset.mem_add.2 (Or.inl (mem_ids_iff_own.1 hi))
        · refine Multiset.mem_add.2 (Or.inr (Multiset.mem_add.2 (Or.inl ?_)))
          cases internal <;> simp_all [ptrIds, ptrOwn]
      have hwl : ∀ i, i ∈ w.live → i ∈ w2.live := fun i hi => by
        rw [hl2]; exact Multiset.mem_add.2 (Or.inr (Multiset.mem_add.2 (Or.inr hi)))
      rw [wpM_bind, touch, wpM_useK]
      refine ⟨hidl, ?_⟩
      rw [wp_some, wpM_bind]
      have hcall : NNCall n L w2 ids lenQ queries Q k rs dq (ptrBuf d.head) := by
        refine ⟨hq.holds, hq.len, fun i hi => hwl i (hids i hi), fun i hi => hwl i (hq.live i hi), hq.pos, hq.range, hk, hkl, b4.head_len.ge, ?_, ?_⟩
        · rcases a4 with ⟨-, rfl⟩ | ⟨-, ⟨-, rfl⟩ | ⟨h1, rfl⟩⟩
          · exact Or.inl rfl
          · right; simp [OutQ.len]
          · exact Or.inr (hout.resolve_left h1)
        · rcases a4 with ⟨-, rfl⟩ | ⟨-, ⟨-, rfl⟩ | ⟨h1, rfl⟩⟩
          · simp
          · simp
          · exact hsame
      refine (hs.nnSearch o L own ids lenQ queries Q k rs radius dq (ptrBuf d.head) w2 ho
        (hown.trans (by rw [hl2, ← add_assoc]; exact Multiset.le_add_left _ _)) hcall).mono ?_
      rintro (_ | r) w3 ⟨c1, c2, c3, c4⟩
      · dsimp only at c4 ⊢
        rw [wpM_bind]
        refine wpM_freePtr (d.own + w.live) (by rw [c3, hl2]; abel) fun w4 k1 k2 k3 => ?_
        rw [wpM_bind]
        refine freeDigraph_spec w.live k2 fun w5 l1 l2 l3 => ?_
        refine wpM_fail fun w6 m1 m2 m3 => ⟨by rw [m1, l1, k1, c1, b1, a1], by rw [m2, l2], by rw [m3], Or.inr (Or.inr ⟨rfl, ?_⟩)⟩
        rwa [hnf] at c4
      · dsimp only at c4 ⊢
        obtain ⟨d1, d2, res, e1, e2, e3⟩ := c4
        have hnd : Q.Nodup := hq.sorted.imp fun h => Nat.ne_of_lt h
        obtain ⟨ans, f1, f2⟩ := answers_fun (e1 ▸ hnd)
        rw [e1] at f2
        have hans : Answers A L k (if rs then some radius else none) Q ans := by
          have hmem : ∀ q ∈ Q, ∃ p ∈ res, p.1 = q ∧ p.2 = ans q := by
            intro q hqm
            rw [← e1] at hqm
            obtain ⟨p, hp, rfl⟩ := List.mem_map.1 hqm
            exact ⟨p, hp, rfl, (f1 p hp).symm⟩
          refine ⟨fun q hqm => ?_, f2, fun hr q hqm => ?_, fun q l hql => ?_⟩
          · obtain ⟨p, hp, rfl, h2⟩ := hmem q hqm
            rw [← h2]; exact (e2 p hp).1
          · obtain ⟨p, hp, rfl, h2⟩ := hmem q hqm
            rw [← h2]; exact (e2 p hp).2.1 hr
          · have hqm : q ∈ Q := by by_contra hc; rw [f2 q hc] at hql; simp at hql
            obtain ⟨p, hp, rfl, h2⟩ := hmem q hqm
            exact (e2 p hp).2.2 l (h2.trans hql)
        have hae : answered res = (okOf ans Q).map fun q => (q, ansRows ans q) := by rw [answered_eq f1, e1]
        have hnum : r.numOk = (okOf ans Q).length := by rw [e3.numOk, hae, List.length_map]
        have hget : ∀ (i q : Nat), (okOf ans Q)[i]? = some q → (answered res)[i]? = some (q, ansRows ans q) := by
          intro i q hi; rw [hae, List.getElem?_map, hi]; rfl
        have hlen : ∀ q l, ans q = some l → l.length = k := fun q l h => (hans.row q l h).1
        have hsort : (okOf ans Q).Pairwise (· < ·) := hq.sorted.filter _
        rw [wpM_bind, wpM_useK, c3]
        refine ⟨?_, ?_⟩
        · intro i hi
          rcases List.mem_append.1 hi with hi | hi
          · exact hidl i hi
          · exact hwl i (hq.live i hi)
        have hokq : OkQueries n lenQ (if rs then some r.outQ else queries.map Arr.buf) (okOf ans Q) := by
          cases hrs : rs with
          | true =>
            rw [if_pos rfl]
            intro i q hi
            refine e3.queries ?_ i _ (hget i q hi)
            rcases a4 with ⟨h1, -⟩ | ⟨-, ⟨-, rfl⟩ | ⟨h1, rfl⟩⟩
            · simp [hrs] at h1
            · simp
            · exact h1
          | false =>
            rw [if_neg Bool.false_ne_true]
            have hall : okOf ans Q = Q := by
              refine List.filter_eq_self.2 fun q hqm => ?_
              exact Option.isSome_iff_ne_none.2 (hans.all (by simp [hrs]) q hqm)
            rw [hall]
            cases hqs : queries with
            | none =>
              have h1 := hq.all hqs
              have h2 := hq.holds
              rw [hqs] at h2
              refine ⟨h1, ?_⟩
              have h3 : Q = List.range Q.length := h2
              rw [h3, hq.len, h1]
            | some a =>
              have h2 := hq.holds
              rw [hqs] at h2
              exact h2
        rw [hnum]
        refine (writeTails_spec (k := k) (lenQ := lenQ) hsort (fun x hx => hq.range x (List.mem_filter.1 hx).1) hokq b4.tail_len).mono ?_
        rintro tail ⟨g1, g2⟩
        have hlt : tail.len = (ptrBuf d.tail).len := by rw [g1, b4.tail_len]
        rw [wpM_bind]
        refine wpM_freePtr (d.own + w.live) (by rw [c3, hl2]; abel) fun w4 k1 k2 k3 => ?_
        refine (shrinkNng_spec (d := { d with head := ptrSet d.head r.nn, tail := ptrSet d.tail tail }) (n := n) (rows := ansRows ans) w.live ⟨b4.n_eq, b4.m_eq, ?_, ?_, b4.arcs, b4.arcs_size, ?_⟩ ?_ hpm
          (off_ansRows_total hq.sorted hq.range hlen f2) ((List.length_filter_le _ _).trans hq.len.le) ?_).mono ?_
        · show (ptrBuf (ptrSet d.tail tail)).len = _
          rw [ptrSet_len hlt]; exact b4.tail_len
        · show (ptrBuf (ptrSet d.head r.nn)).len = _
          rw [ptrSet_len d1]; exact b4.head_len
        · show _ ↔ ptrSet d.head r.nn = none
          rw [ptrSet_eq_none]; exact b4.head_null
        · refine csr_of_answers hq.sorted hq.range hlen (fun q l h x hx => hL x ((hans.row q l h).2.2 hx)) f2 (fun v hv => ?_) (fun i q hi j x hx => ?_)
          · show (ptrBuf (ptrSet d.tail tail)).get v = _
            rw [ptrSet_get hlt]; exact g2 v hv
          · show (ptrBuf (ptrSet d.head r.nn)).get _ = _
            rw [ptrSet_get d1]
            exact e3.neighbors i _ (hget i q hi) j x hx
        · simpa [Digraph.own] using k2
        · rintro (e | out) w5 ⟨m1, m2⟩
          · obtain ⟨m2, m3, m4, m5⟩ := m2
            refine ⟨by rw [m1, k1, c1, b1, a1], m2, m3, Or.inr (Or.inl ⟨m4, fun hn => m5 ?_⟩)⟩
            rwa [noFail_congr (w := w) (by rw [k1, c1, b1, a1])]
          · obtain ⟨m2, m3, m4, m5, m6, m7⟩ := m2
            refine ⟨ans, by rw [m1, k1, c1, b1, a1], m2, by rw [m3, k3, c2, b3, a2], hans, m4, m5, m6, fun hrs ho => ?_, fun hrs ho => ?_⟩
            · rw [m7, d2 (by rcases a4 with ⟨h1, -⟩ | ⟨-, ⟨h1, -⟩ | ⟨h1, rfl⟩⟩ <;> simp_all)]
              rcases a4 with ⟨h1, -⟩ | ⟨-, ⟨h1, -⟩ | ⟨h1, rfl⟩⟩
              · simp [hrs] at h1
              · exact absurd h1 ho
              · rfl
            · rw [m7]
              rw [hrs, if_pos rfl] at hokq
              exact hokq

theorem makeNng_spec {cfg : Cfg} {spi : Spi F} {n : Nat} {A : Criterion F} {dist : Nat → Nat → F} {mayRefuse : Prop} (hs : SpiOk spi n A dist mayRefuse)
    {search : Option Arr} {L : List Nat} {w : World} {lenQ : Nat} {queries : Option Arr} {Q : List Nat} {k : Nat} (rs : Bool) (radius : F)
    {outQ : OutQ} (hpm : n ≤ cfg.pointMax) (hsL : ArrHolds search L) (hLn : L.Nodup) (hL : ∀ x ∈ L, x < n) (hids : ∀ i ∈ arrIds search, i ∈ w.live)
    (hq : QueryInput w n lenQ queries Q) (hk : 0 < k) (hkl : k ≤ L.length) (hsz : lenQ * k ≤ cfg.sizeMax) (hout : outQ = .null ∨ lenQ ≤ outQ.len queries)
    (hsame : outQ = .same → queries ≠ none) :
    WpM (makeNng cfg spi n L.length search lenQ queries k rs radius outQ) w (fun r w' => match r with
      | .error e => FailPost w (SysCause w (cfg.arcMax < lenQ * k) mayRefuse) e w'
      | .ok out => ∃ ans, NngPost cfg A w n L k rs radius queries Q outQ ans out w') := by
  unfold makeNng
  rw [wpM_bind]
  refine (hs.nnInit L.length search L w hsL rfl (by omega) hLn hL hids).mono ?_
  rintro (_ | o) w1 ⟨a1, a2, a3⟩
  · dsimp only
    exact wpM_fail fun w2 l1 l2 l3 => ⟨l1.trans a1, l2.trans a3.1, by rw [l3], Or.inr (Or.inr ⟨rfl, a3.2⟩)⟩
  · obtain ⟨own, hnn, a4⟩ := a3
    dsimp only
    have hwl : ∀ i, i ∈ w.live → i ∈ w1.live := fun i hi => by rw [a4]; exact Multiset.mem_add.2 (Or.inr hi)
    rw [wpM_bind]
    refine (makeNngFromSearch_spec (cfg := cfg) hs rs radius hpm hL hnn (by rw [a4]; exact Multiset.le_add_right _ _) (fun i hi => hwl i (hids i hi))
      ⟨hq.holds, hq.len, hq.sorted, hq.range, hq.pos, fun i hi => hwl i (hq.live i hi), hq.all⟩ hk hkl hsz hout hsame).mono ?_
    rintro (e | out) w2 h
    · dsimp only
      rw [wpM_bind]
      refine (hs.nnClose o L own _ w2 w.live hnn (by rw [h.live, a4])).mono ?_
      rintro b w3 ⟨k1, k2, k3, -⟩
      rw [wpM_pure]
      exact ⟨by rw [k1, h.fails, a1], k3, by rw [k2, h.err], h.cause.imp a1 id id⟩
    · obtain ⟨ans, h⟩ := h
      dsimp only
      rw [wpM_bind]
      refine (hs.nnClose o L own _ w2 (out.nng.own + w.live) hnn (by rw [h.live, a4]; abel)).mono ?_
      rintro b w3 ⟨k1, k2, k3, k4⟩
      cases b
      · rw [if_neg Bool.false_ne_true, wpM_bind]
        refine freeDigraph_spec w.live k3 fun w4 l1 l2 l3 => ?_
        refine wpM_fail fun w5 m1 m2 m3 => ⟨by rw [m1, l1, k1, h.fails, a1], by rw [m2, l2], by rw [m3], Or.inr (Or.inr ⟨rfl, ?_⟩)⟩
        have := k4 rfl
        rwa [noFail_congr (h.fails.trans a1)] at this
      · rw [if_pos rfl, wpM_pure]
        exact ⟨ans, by rw [k1, h.fails, a1], k3, by rw [k2, h.err, a2], h.answers, h.n_eq, h.repr, h.numOk, h.outQ_len, h.outQ_pre⟩

end Scc
