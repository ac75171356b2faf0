/-
Sorting vertices by inwards arcs, and the priority queue of the updating methods.
-/
import Verif.Proofs.SeedsBasic
import Mathlib.Data.List.Perm.Subperm

set_option linter.unusedSimpArgs false
set_option linter.unusedVariables false

namespace Scc

/-! ### Ranks -/

/-- Number of vertices with a key below `c`. -/
def below (n : Nat) (f : Nat → Nat) (c : Nat) : Nat := (List.range n).countP (fun u => f u < c)

/-- Position of `v` when `0..n-1` is sorted by key, ties by index. -/
def rank (n : Nat) (f : Nat → Nat) (v : Nat) : Nat := below n f (f v) + (List.range v).countP (fun u => f u = f v)

theorem countP_range_succ (p : Nat → Bool) (n : Nat) : (List.range (n + 1)).countP p = (List.range n).countP p + if p n then 1 else 0 := by
  rw [List.range_succ, List.countP_append]; simp [List.countP_cons]

theorem countP_range_mono (p : Nat → Bool) {m n : Nat} (h : m ≤ n) : (List.range m).countP p ≤ (List.range n).countP p := by
  obtain ⟨k, rfl⟩ := Nat.exists_eq_add_of_le h
  induction k with
  | zero => simp
  | succ k ih => rw [← Nat.add_assoc, countP_range_succ]; have := ih (by omega); omega

theorem countP_range_lt (p : Nat → Bool) {u v : Nat} (h : u < v) (hp : p u = true) : (List.range u).countP p < (List.range v).countP p := by
  have h1 := countP_range_mono p (show u + 1 ≤ v by omega)
  rw [countP_range_succ, if_pos hp] at h1; omega

theorem below_succ (n : Nat) (f : Nat → Nat) (c : Nat) : below n f (c + 1) = below n f c + (List.range n).countP (fun u => f u = c) := by
  unfold below
  induction n with
  | zero => simp
  | succ n ih =>
    rw [countP_range_succ, countP_range_succ, countP_range_succ, ih]
    by_cases h1 : f n < c
    · have : f n ≠ c := by omega
      simp [h1, this, show f n < c + 1 by omega]; omega
    · by_cases h2 : f n = c
      · simp [h2]; omega
      · simp [h1, h2, show ¬ f n < c + 1 by omega]

theorem below_mono (n : Nat) (f : Nat → Nat) {c d : Nat} (h : c ≤ d) : below n f c ≤ below n f d := by
  unfold below
  apply List.countP_mono_left
  intro x _ hx
  simp at hx ⊢; omega

theorem below_le (n : Nat) (f : Nat → Nat) (c : Nat) : below n f c ≤ n := by
  have := List.countP_le_length (p := fun u => decide (f u < c)) (l := List.range n)
  simpa [below] using this

theorem rank_lt_below {n : Nat} {f : Nat → Nat} {v : Nat} (hv : v < n) : rank n f v < below n f (f v + 1) := by
  rw [below_succ]
  have := countP_range_lt (fun u => decide (f u = f v)) hv (by simp)
  unfold rank; omega

theorem rank_lt {n : Nat} {f : Nat → Nat} {v : Nat} (hv : v < n) : rank n f v < n :=
  lt_of_lt_of_le (rank_lt_below hv) (below_le _ _ _)

theorem rank_strict {n : Nat} {f : Nat → Nat} {u v : Nat} (hu : u < n) (h : f u < f v ∨ f u = f v ∧ u < v) : rank n f u < rank n f v := by
  rcases h with h | ⟨h, h'⟩
  · have h1 := rank_lt_below (f := f) hu
    have h2 := below_mono n f (show f u + 1 ≤ f v by omega)
    unfold rank at h1 ⊢; omega
  · have := countP_range_lt (fun w => decide (f w = f v)) h' (by simp [h])
    unfold rank; rw [h]; omega

theorem rank_inj {n : Nat} {f : Nat → Nat} {u v : Nat} (hu : u < n) (hv : v < n) (h : rank n f u = rank n f v) : u = v := by
  by_contra hne
  rcases Nat.lt_trichotomy (f u) (f v) with h1 | h1 | h1
  · have := rank_strict hu (Or.inl h1); omega
  · rcases Nat.lt_or_gt_of_ne hne with h2 | h2
    · have := rank_strict hu (Or.inr ⟨h1, h2⟩); omega
    · have := rank_strict hv (Or.inr ⟨h1.symm, h2⟩); omega
  · have := rank_strict hv (Or.inl h1); omega

theorem perm_range {l : List Nat} {n : Nat} (hn : l.Nodup) (hlt : ∀ x ∈ l, x < n) (hl : l.length = n) : l.Perm (List.range n) := by
  have : l.Subperm (List.range n) := List.subperm_of_subset hn (fun x hx => by simpa using hlt x hx)
  exact this.perm_of_length_le (by simp [hl])

theorem rank_surj {n : Nat} {f : Nat → Nat} {i : Nat} (hi : i < n) : ∃ v, v < n ∧ rank n f v = i := by
  have hp : ((List.range n).map (rank n f)).Perm (List.range n) := by
    apply perm_range
    · rw [List.nodup_map_iff_inj_on (List.nodup_range)]
      intro a ha b hb h
      exact rank_inj (by simpa using ha) (by simpa using hb) h
    · intro x hx
      simp only [List.mem_map, List.mem_range] at hx
      obtain ⟨v, hv, rfl⟩ := hx
      exact rank_lt hv
    · simp
  have : i ∈ (List.range n).map (rank n f) := hp.mem_iff.2 (by simpa using hi)
  simpa using this

/-! ### The sort -/

/-- Number of arcs to `x`. -/
def indeg (rows : Nat → List Nat) (n x : Nat) : Nat := (allArcs rows n).count x

theorem countInwards_spec {n : Nat} {head tail cnt : Buf Nat} {rows : Nat → List Nat} (hc : Csr n head tail rows)
    (hl : cnt.len = n) (h0 : ∀ x, x < n → cnt.get x = some 0) :
    Wp (countInwards n head tail cnt) (fun c => c.len = n ∧ ∀ x, x < n → c.get x = some (indeg rows n x)) := by
  unfold countInwards
  rw [wp_bind, wp_eq hc.total, allArcsLoop_eq hc]
  refine wp_foldlM (fun pre (c : Buf Nat) => c.len = n ∧ ∀ x, x < n → c.get x = some (pre.count x)) _ _ ⟨hl, by simpa using h0⟩ ?_
  rintro pre a post c hsplit ⟨h1, h2⟩
  have ha : a < n := by
    have : a ∈ allArcs rows n := by rw [hsplit]; simp
    obtain ⟨v, hv, hav⟩ := mem_allArcs.1 this
    exact hc.range v hv a hav
  rw [wp_bind, wp_eq (h2 a ha), Buf.wp_set]
  refine ⟨by omega, by simpa using h1, fun x hx => ?_⟩
  rw [List.count_append, List.count_singleton]
  by_cases hxa : x = a
  · subst hxa; rw [Buf.get_upd_self _ _ (by omega)]; simp
  · rw [Buf.get_upd_ne _ _ hxa, h2 x hx]; simp [Ne.symm hxa]

theorem maxInwards_spec {n : Nat} {cnt : Buf Nat} {f : Nat → Nat} (h : ∀ x, x < n → cnt.get x = some (f x)) :
    Wp (maxInwards n cnt) (fun m => ∀ x, x < n → f x ≤ m) := by
  unfold maxInwards
  refine wp_forLt (fun i m => ∀ x, x < i → f x ≤ m) (Nat.zero_le _) (by simp) ?_ (fun m hm => hm)
  intro i m _ hi hm
  rw [wp_bind, wp_eq (h i hi), wp_pure]
  intro x hx
  by_cases hxi : x = i
  · subst hxi; split <;> omega
  · have := hm x (by omega); split <;> omega

theorem bucketEnds_spec {n mx : Nat} {cnt bc bidx : Buf Nat} {f : Nat → Nat} (h : ∀ x, x < n → cnt.get x = some (f x))
    (hm : ∀ x, x < n → f x ≤ mx) (hbl : bc.len = mx + 1) (hb0 : ∀ c, c ≤ mx → bc.get c = some 0) (hil : bidx.len = mx + 1) :
    Wp (bucketEnds n mx cnt bc bidx) (fun b => b.len = mx + 1 ∧ ∀ c, c ≤ mx → b.get c = some (below n f (c + 1))) := by
  unfold bucketEnds
  rw [wp_bind]
  refine wp_forLt (fun i (b : Buf Nat) => b.len = mx + 1 ∧ ∀ c, c ≤ mx → b.get c = some ((List.range i).countP (fun u => f u = c)))
    (Nat.zero_le _) ⟨hbl, by simpa using hb0⟩ ?_ ?_
  · rintro i b _ hi ⟨h1, h2⟩
    have := hm i hi
    rw [wp_bind, wp_eq (h i hi), wp_bind, wp_eq (h2 _ this), Buf.wp_set]
    refine ⟨by omega, by simpa using h1, fun c hc => ?_⟩
    rw [countP_range_succ]
    by_cases hcf : c = f i
    · subst hcf; rw [Buf.get_upd_self _ _ (by omega)]; simp
    · rw [Buf.get_upd_ne _ _ hcf, h2 c hc]; simp [Ne.symm hcf]
  · rintro b ⟨h1, h2⟩
    rw [wp_bind, wp_eq (h2 0 (Nat.zero_le _)), wp_bind, Buf.wp_set]
    refine ⟨by omega, ?_⟩
    refine wp_forLt (fun i (b : Buf Nat) => b.len = mx + 1 ∧ ∀ c, c < i → b.get c = some (below n f (c + 1))) (by omega) ?_ ?_ ?_
    · refine ⟨by simpa using hil, fun c hc => ?_⟩
      have : c = 0 := by omega
      subst this
      rw [Buf.get_upd_self _ _ (by omega), below_succ]
      simp [below]
    · rintro i bi hi1 hi2 ⟨k1, k2⟩
      rw [wp_bind, wp_eq (k2 (i - 1) (by omega)), wp_bind, wp_eq (h2 i (by omega)), Buf.wp_set]
      refine ⟨by omega, by simpa using k1, fun c hc => ?_⟩
      by_cases hci : c = i
      · subst hci
        rw [Buf.get_upd_self _ _ (by omega), below_succ n f c, show c - 1 + 1 = c by omega]
      · rw [Buf.get_upd_ne _ _ hci]; exact k2 c (by omega)
    · rintro bi ⟨k1, k2⟩
      exact ⟨k1, fun c hc => k2 c (by omega)⟩

theorem fillSorted_spec {n mx : Nat} {cnt sv vidx bidx : Buf Nat} {f : Nat → Nat} (indices : Bool) (h : ∀ x, x < n → cnt.get x = some (f x))
    (hm : ∀ x, x < n → f x ≤ mx) (hs : sv.len = n) (hv : indices = true → vidx.len = n)
    (hil : bidx.len = mx + 1) (hb : ∀ c, c ≤ mx → bidx.get c = some (below n f (c + 1))) :
    Wp (fillSorted indices n cnt sv vidx bidx) (fun r => r.1.len = n ∧ (∀ v, v < n → r.1.get (rank n f v) = some v) ∧
      (indices = true → r.2.1.len = n ∧ ∀ v, v < n → r.2.1.get v = some (rank n f v)) ∧ r.2.2.len = mx + 1 ∧ ∀ c, c ≤ mx → r.2.2.get c = some (below n f c)) := by
  unfold fillSorted
  refine (wp_foldlM (fun pre (r : Buf Nat × Buf Nat × Buf Nat) => r.1.len = n ∧ (∀ v, v ∈ pre → r.1.get (rank n f v) = some v) ∧
      (indices = true → r.2.1.len = n ∧ ∀ v, v ∈ pre → r.2.1.get v = some (rank n f v)) ∧ r.2.2.len = mx + 1 ∧
      ∀ c, c ≤ mx → r.2.2.get c = some (below n f c + (List.range (n - pre.length)).countP (fun u => f u = c))) _ _
    ⟨hs, by simp, fun hi => ⟨hv hi, by simp⟩, hil, ?_⟩ ?_).mono ?_
  · intro c hc
    rw [hb c hc, below_succ]; simp
  · rintro pre v post ⟨s, vi, bi⟩ hsplit ⟨h1, h2, h3, h4, h5⟩
    dsimp only at h1 h2 h3 h4 h5 ⊢
    have hlen : n = pre.length + (post.length + 1) := by
      have := congrArg List.length hsplit; simpa using this
    have hvn : v = n - pre.length - 1 := by
      have := congrArg (fun l => l[pre.length]?) hsplit
      simp only [List.getElem?_append_right (le_refl _), Nat.sub_self, List.getElem?_cons_zero] at this
      rw [List.getElem?_reverse (by simp; omega)] at this
      simp at this
      rw [List.getElem?_range (by omega)] at this
      simp at this; omega
    have hvlt : v < n := by omega
    have hpre : ∀ u ∈ pre, v < u ∧ u < n := by
      intro u hu
      have hp : (List.range n).reverse.Pairwise (· > ·) := by
        rw [List.pairwise_reverse]; exact List.pairwise_lt_range
      rw [hsplit, List.pairwise_append] at hp
      refine ⟨hp.2.2 u hu v (by simp), ?_⟩
      have : u ∈ (List.range n).reverse := by rw [hsplit]; simp [hu]
      simpa using this
    have hfv := hm v hvlt
    rw [wp_bind, wp_eq (h v hvlt), wp_bind, wp_eq (h5 _ hfv)]
    have hstep : (List.range (n - pre.length)).countP (fun u => f u = f v) = (List.range v).countP (fun u => f u = f v) + 1 := by
      rw [show n - pre.length = v + 1 by omega, countP_range_succ]; simp
    have hrank : below n f (f v) + (List.range (n - pre.length)).countP (fun u => f u = f v) - 1 = rank n f v := by
      rw [hstep]; unfold rank; omega
    rw [if_neg (by omega), hrank, wp_bind, Buf.wp_set]
    refine ⟨by omega, ?_⟩
    rw [wp_bind, Buf.wp_set]
    have hr := rank_lt (f := f) hvlt
    refine ⟨by omega, ?_⟩
    have key : ∀ vi' : Buf Nat, (indices = true → vi'.len = n ∧ ∀ u, u ∈ pre ++ [v] → vi'.get u = some (rank n f u)) →
        (s.upd (rank n f v) v).len = n ∧ (∀ u, u ∈ pre ++ [v] → (s.upd (rank n f v) v).get (rank n f u) = some u) ∧
        (indices = true → vi'.len = n ∧ ∀ u, u ∈ pre ++ [v] → vi'.get u = some (rank n f u)) ∧ (bi.upd (f v) (rank n f v)).len = mx + 1 ∧
        ∀ c, c ≤ mx → (bi.upd (f v) (rank n f v)).get c = some (below n f c + (List.range (n - (pre ++ [v]).length)).countP (fun u => f u = c)) := by
      intro vi' hvi
      refine ⟨by simpa using h1, fun u hu => ?_, hvi, by simpa using h4, fun c hc => ?_⟩
      · by_cases huv : u = v
        · subst huv; rw [Buf.get_upd_self _ _ (by omega)]
        · have hup : u ∈ pre := by simpa [huv] using hu
          rw [Buf.get_upd_ne _ _ (fun he => huv (rank_inj (hpre u hup).2 hvlt he))]
          exact h2 u hup
      · rw [show n - (pre ++ [v]).length = v by simp; omega]
        by_cases hcf : c = f v
        · subst hcf; rw [Buf.get_upd_self _ _ (by omega)]; rfl
        · rw [Buf.get_upd_ne _ _ hcf, h5 c hc, show n - pre.length = v + 1 by omega, countP_range_succ]
          simp [Ne.symm hcf]
    cases indices with
    | false => rw [if_neg Bool.false_ne_true, wp_bind, wp_pure, wp_pure]; exact key vi (by simp)
    | true =>
      obtain ⟨h3a, h3b⟩ := h3 rfl
      rw [if_pos rfl, wp_bind, Buf.wp_set]
      refine ⟨by omega, ?_⟩
      rw [wp_pure]
      refine key _ fun _ => ⟨by simpa using h3a, fun u hu => ?_⟩
      by_cases huv : u = v
      · subst huv; rw [Buf.get_upd_self _ _ (by omega)]
      · rw [Buf.get_upd_ne _ _ huv]; exact h3b u (by simpa [huv] using hu)
  · rintro ⟨s, vi, bi⟩ ⟨h1, h2, h3, h4, h5⟩
    dsimp only at h1 h2 h3 h4 h5 ⊢
    refine ⟨h1, fun v hv => h2 v (by simpa using hv), fun hi => ⟨(h3 hi).1, fun v hv => (h3 hi).2 v (by simpa using hv)⟩, h4, fun c hc => ?_⟩
    rw [h5 c hc]; simp

/-! ### The priority queue -/

/-- `ord` and `pos` are inverse bijections of `0..n-1`. -/
structure OrdOK (n : Nat) (ord pos : Nat → Nat) : Prop where
  ord_lt : ∀ i, i < n → ord i < n
  pos_lt : ∀ v, v < n → pos v < n
  ord_pos : ∀ v, v < n → ord (pos v) = v
  pos_ord : ∀ i, i < n → pos (ord i) = i

theorem ordOK_rank (n : Nat) (f : Nat → Nat) : ∃ ord, OrdOK n ord (rank n f) := by
  have h : ∀ i, ∃ v, i < n → v < n ∧ rank n f v = i := by
    intro i
    by_cases hi : i < n
    · obtain ⟨v, hv⟩ := rank_surj (f := f) hi
      exact ⟨v, fun _ => hv⟩
    · exact ⟨0, fun h => absurd h hi⟩
  choose ord ho using h
  refine ⟨ord, fun i hi => (ho i hi).1, fun v hv => rank_lt hv, fun v hv => ?_, fun i hi => (ho i hi).2⟩
  exact rank_inj (ho _ (rank_lt hv)).1 hv (ho _ (rank_lt hv)).2

theorem OrdOK.perm {n : Nat} {ord pos : Nat → Nat} (h : OrdOK n ord pos) : ((List.range n).map ord).Perm (List.range n) := by
  apply perm_range
  · rw [List.nodup_map_iff_inj_on (List.nodup_range)]
    intro a ha b hb hab
    rw [← h.pos_ord a (by simpa using ha), ← h.pos_ord b (by simpa using hb), hab]
  · intro x hx
    simp only [List.mem_map, List.mem_range] at hx
    obtain ⟨v, hv, rfl⟩ := hx
    exact h.ord_lt v hv
  · simp

/-- State of the queue: positions from `lo` on are sorted by the current counts `f`, and ties by index when `st` is set. -/
structure QOK (st : Bool) (n mx lo : Nat) (q : Queue) (ord pos f : Nat → Nat) : Prop where
  sv_len : q.sv.len = n
  vidx_len : q.vidx.len = n
  cnt_len : q.cnt.len = n
  bidx_len : q.bidx.len = mx + 1
  sv : ∀ i, i < n → q.sv.get i = some (ord i)
  vidx : ∀ v, v < n → q.vidx.get v = some (pos v)
  cnt : ∀ v, v < n → q.cnt.get v = some (f v)
  ok : OrdOK n ord pos
  le : ∀ v, v < n → f v ≤ mx
  bk : ∀ b, b ≤ mx → ∃ B, q.bidx.get b = some B ∧ ∀ i, lo ≤ i → i < n → (i < B ↔ f (ord i) < b)
  tie : st = true → ∀ i j, lo ≤ i → i < j → j < n → f (ord i) = f (ord j) → ord i < ord j

theorem QOK.mono {st : Bool} {n mx lo lo' : Nat} {q : Queue} {ord pos f : Nat → Nat} (h : QOK st n mx lo q ord pos f) (hl : lo ≤ lo') : QOK st n mx lo' q ord pos f :=
  ⟨h.sv_len, h.vidx_len, h.cnt_len, h.bidx_len, h.sv, h.vidx, h.cnt, h.ok, h.le, fun b hb => by
    obtain ⟨B, h1, h2⟩ := h.bk b hb
    exact ⟨B, h1, fun i hi hn => h2 i (by omega) hn⟩, fun hs i j hi => h.tie hs i j (by omega)⟩

theorem QOK.sorted {st : Bool} {n mx lo : Nat} {q : Queue} {ord pos f : Nat → Nat} (h : QOK st n mx lo q ord pos f) {i j : Nat}
    (hi : lo ≤ i) (hij : i ≤ j) (hj : j < n) : f (ord i) ≤ f (ord j) := by
  by_cases hm : f (ord j) + 1 ≤ mx
  · obtain ⟨B, -, h2⟩ := h.bk _ hm
    have h3 := (h2 j (by omega) hj).2 (by omega)
    have h4 := (h2 i hi (by omega)).1 (by omega)
    omega
  · have := h.le _ (h.ok.ord_lt i (by omega))
    omega

/-! ### The stable variant -/

/-- Contents of the arrays while the vertex `ord s` moves down and position `j` is free. -/
structure Shifted (n s j : Nat) (ord pos : Nat → Nat) (sv vidx : Buf Nat) : Prop where
  sv_len : sv.len = n
  vidx_len : vidx.len = n
  le : j ≤ s
  low : ∀ i, i < j → sv.get i = some (ord i)
  mid : ∀ i, j < i → i ≤ s → sv.get i = some (ord (i - 1))
  high : ∀ i, s < i → i < n → sv.get i = some (ord i)
  idx : ∀ x, x < n → x ≠ ord s → vidx.get x = some (if j ≤ pos x ∧ pos x < s then pos x + 1 else pos x)

theorem bucketSortLoop_spec {n start s : Nat} {ord pos : Nat → Nat} (hok : OrdOK n ord pos) (hsn : s < n) (j : Nat) {sv vidx : Buf Nat} (h : Shifted n s j ord pos sv vidx) (hj : start ≤ j)
    (hgt : ∀ i, j ≤ i → i < s → ord s < ord i) :
    Wp (bucketSortLoop start (ord s) j sv vidx) (fun r => start ≤ r.1 ∧ Shifted n s r.1 ord pos r.2.1 r.2.2 ∧ (∀ i, r.1 ≤ i → i < s → ord s < ord i) ∧ (start < r.1 → ord (r.1 - 1) ≤ ord s)) := by
  induction j generalizing sv vidx with
  | zero =>
    unfold bucketSortLoop
    rw [if_pos (by omega), wp_some]
    exact ⟨hj, h, hgt, fun hx => by dsimp only at hx; omega⟩
  | succ j ih =>
    unfold bucketSortLoop
    by_cases he : j + 1 = start
    · rw [if_pos he, wp_some]
      exact ⟨hj, h, hgt, fun hx => by dsimp only at hx; omega⟩
    · have hle := h.le
      rw [if_neg he, wp_bind, wp_eq (h.low j (by omega))]
      by_cases hc : ord j ≤ ord s
      · rw [if_pos hc, wp_pure]
        exact ⟨hj, h, hgt, fun _ => hc⟩
      · rw [if_neg hc, wp_bind, Buf.wp_set]
        refine ⟨by rw [h.sv_len]; omega, ?_⟩
        rw [wp_bind, wp_eq (Buf.get_upd_self _ _ (by rw [h.sv_len]; omega)), wp_bind, Buf.wp_set]
        refine ⟨by rw [h.vidx_len]; exact hok.ord_lt j (by omega), ?_⟩
        refine ih ⟨h.sv_len, h.vidx_len, by omega, fun i hi => ?_, fun i hi hs => ?_, fun i hs hi => ?_, fun x hx hne => ?_⟩ (by omega) (fun i hi hs => ?_)
        · rw [Buf.get_upd_ne _ _ (by omega)]; exact h.low i (by omega)
        · by_cases hij : i = j + 1
          · subst hij; rw [Buf.get_upd_self _ _ (by rw [h.sv_len]; omega), Nat.add_sub_cancel]
          · rw [Buf.get_upd_ne _ _ hij]; exact h.mid i (by omega) hs
        · rw [Buf.get_upd_ne _ _ (by omega)]; exact h.high i hs hi
        · by_cases hxj : x = ord j
          · subst hxj
            rw [Buf.get_upd_self _ _ (by rw [h.vidx_len]; exact hx), hok.pos_ord j (by omega), if_pos (by omega)]
          · rw [Buf.get_upd_ne _ _ hxj, h.idx x hx hne]
            have : pos x ≠ j := fun hp => hxj (by rw [← hp, hok.ord_pos x hx])
            congr 1
            by_cases h1 : j + 1 ≤ pos x ∧ pos x < s
            · rw [if_pos h1, if_pos (by omega)]
            · rw [if_neg h1, if_neg (by omega)]
        · by_cases hij : i = j
          · subst hij; omega
          · exact hgt i (by omega) hs

/-- The vertex at position `s` is put in its place among the ascending positions from `start` on, when all have the same count. -/
theorem bucketSort_spec {n mx lo start s : Nat} {q : Queue} {ord pos f : Nat → Nat} (h : QOK false n mx lo q ord pos f) (hs : start ≤ s) (hsn : s < n)
    (hf : ∀ i, start ≤ i → i ≤ s → f (ord i) = f (ord s)) (hasc : ∀ i j, start ≤ i → i < j → j < s → ord i < ord j) :
    Wp (bucketSort start s q) (fun q' => q'.bidx = q.bidx ∧ ∃ ord' pos', QOK false n mx lo q' ord' pos' f ∧ (∀ i, i < start ∨ s < i → ord' i = ord i) ∧
      (∀ i, start ≤ i → i ≤ s → ∃ j, start ≤ j ∧ j ≤ s ∧ ord' i = ord j) ∧ ∀ i j, start ≤ i → i < j → j ≤ s → ord' i < ord' j) := by
  unfold bucketSort
  rw [wp_bind, wp_eq (h.sv s hsn), wp_bind]
  refine (bucketSortLoop_spec h.ok hsn s ⟨h.sv_len, h.vidx_len, le_rfl, fun i hi => h.sv i (by omega), fun i h1 h2 => absurd h1 (by omega), fun i h1 h2 => h.sv i h2, fun x hx _ => ?_⟩ hs
    (fun i h1 h2 => absurd h1 (by omega))).mono ?_
  · rw [h.vidx x hx, if_neg (by omega)]
  rintro ⟨k, sv, vidx⟩ ⟨h1, h2, h3, h4⟩
  dsimp only at h1 h2 h3 h4 ⊢
  have hks := h2.le
  rw [wp_bind, Buf.wp_set]
  refine ⟨by rw [h2.sv_len]; omega, ?_⟩
  rw [wp_bind, wp_eq (Buf.get_upd_self _ _ (by rw [h2.sv_len]; omega)), wp_bind, Buf.wp_set]
  have hosn := h.ok.ord_lt s hsn
  refine ⟨by rw [h2.vidx_len]; exact hosn, ?_⟩
  rw [wp_pure]
  let ord' : Nat → Nat := fun i => if i = k then ord s else if k < i ∧ i ≤ s then ord (i - 1) else ord i
  let pos' : Nat → Nat := fun x => if x = ord s then k else if k ≤ pos x ∧ pos x < s then pos x + 1 else pos x
  have hinj : ∀ i j, i < n → j < n → ord i = ord j → i = j := fun i j hi hj he => by rw [← h.ok.pos_ord i hi, ← h.ok.pos_ord j hj, he]
  have hfo : ∀ i, i < n → f (ord' i) = f (ord i) := by
    intro i hi
    simp only [ord']
    by_cases h5 : i = k
    · rw [if_pos h5, h5]; exact (hf k h1 hks).symm
    · rw [if_neg h5]
      by_cases h6 : k < i ∧ i ≤ s
      · rw [if_pos h6, hf (i - 1) (by omega) (by omega), hf i (by omega) (by omega)]
      · rw [if_neg h6]
  have hok' : OrdOK n ord' pos' := by
    refine ⟨fun i hi => ?_, fun x hx => ?_, fun x hx => ?_, fun i hi => ?_⟩
    · simp only [ord']
      split
      · exact hosn
      · split
        · exact h.ok.ord_lt _ (by omega)
        · exact h.ok.ord_lt _ hi
    · simp only [pos']
      split
      · omega
      · split
        · omega
        · exact h.ok.pos_lt x hx
    · simp only [ord', pos']
      by_cases h5 : x = ord s
      · rw [if_pos h5, if_pos rfl, h5]
      · rw [if_neg h5]
        have h8 : pos x ≠ s := fun hp => h5 (by rw [← hp, h.ok.ord_pos x hx])
        by_cases h6 : k ≤ pos x ∧ pos x < s
        · rw [if_pos h6, if_neg (by omega), if_pos (by omega), Nat.add_sub_cancel, h.ok.ord_pos x hx]
        · rw [if_neg h6, if_neg (by omega), if_neg (by omega), h.ok.ord_pos x hx]
    · simp only [ord', pos']
      by_cases h5 : i = k
      · rw [if_pos h5, if_pos rfl, h5]
      · rw [if_neg h5]
        by_cases h6 : k < i ∧ i ≤ s
        · rw [if_pos h6, if_neg (fun he => absurd (hinj _ _ (by omega) hsn he) (by omega)), h.ok.pos_ord (i - 1) (by omega), if_pos (by omega)]
          omega
        · rw [if_neg h6, if_neg (fun he => absurd (hinj _ _ hi hsn he) (by omega)), h.ok.pos_ord i hi, if_neg (by omega)]
  refine ⟨rfl, ord', pos', ⟨?_, ?_, h.cnt_len, h.bidx_len, fun i hi => ?_, fun x hx => ?_, h.cnt, hok', h.le, fun b hb => ?_, fun hx => absurd hx Bool.false_ne_true⟩, fun i hi => ?_, fun i h5 h6 => ?_, fun i j h5 h6 h7 => ?_⟩
  · exact h2.sv_len
  · exact h2.vidx_len
  · show (sv.upd k (ord s)).get i = some (ord' i)
    simp only [ord']
    by_cases h5 : i = k
    · rw [if_pos h5, h5]; exact Buf.get_upd_self _ _ (by rw [h2.sv_len]; omega)
    · rw [Buf.get_upd_ne _ _ h5, if_neg h5]
      by_cases h6 : k < i ∧ i ≤ s
      · rw [if_pos h6]; exact h2.mid i h6.1 h6.2
      · rw [if_neg h6]
        rcases Nat.lt_or_ge i k with h7 | h7
        · exact h2.low i h7
        · exact h2.high i (by omega) hi
  · show (vidx.upd (ord s) k).get x = some (pos' x)
    simp only [pos']
    by_cases h5 : x = ord s
    · rw [if_pos h5, h5]; exact Buf.get_upd_self _ _ (by rw [h2.vidx_len]; exact hosn)
    · rw [Buf.get_upd_ne _ _ h5, if_neg h5]; exact h2.idx x hx h5
  · obtain ⟨B, hB, hBi⟩ := h.bk b hb
    exact ⟨B, hB, fun i h5 h6 => by rw [hfo i h6]; exact hBi i h5 h6⟩
  · simp only [ord']
    rw [if_neg (by omega), if_neg (by omega)]
  · simp only [ord']
    by_cases h7 : i = k
    · rw [if_pos h7]; exact ⟨s, hs, le_rfl, rfl⟩
    · rw [if_neg h7]
      by_cases h8 : k < i ∧ i ≤ s
      · rw [if_pos h8]; exact ⟨i - 1, by omega, by omega, rfl⟩
      · rw [if_neg h8]; exact ⟨i, h5, h6, rfl⟩
  · simp only [ord']
    by_cases h8 : j = k
    · have hik : ord (k - 1) < ord s := by
        have := h4 (by omega)
        rcases Nat.lt_or_eq_of_le this with h9 | h9
        · exact h9
        · exact absurd (hinj _ _ (by omega) hsn h9) (by omega)
      rw [if_pos h8, if_neg (by omega), if_neg (by omega)]
      by_cases h9 : i = k - 1
      · rw [h9]; exact hik
      · exact lt_trans (hasc i (k - 1) h5 (by omega) (by omega)) hik
    · rw [if_neg h8]
      by_cases h9 : i = k
      · rw [if_pos h9, if_pos (by omega)]; exact h3 (j - 1) (by omega) (by omega)
      · rw [if_neg h9]
        by_cases h10 : k < i ∧ i ≤ s
        · rw [if_pos h10, if_pos (by omega)]; exact hasc _ _ (by omega) (by omega) (by omega)
        · rw [if_neg h10]
          by_cases h11 : k < j ∧ j ≤ s
          · rw [if_pos h11]
            exact hasc _ _ h5 (by omega) (by omega)
          · rw [if_neg h11]
            exact hasc _ _ h5 h6 (by omega)

/-- The old bucket is put in order. -/
theorem restoreFirst_spec {n mx p c src dst : Nat} {q : Queue} {ord pos f : Nat → Nat} (h : QOK false n mx (p + 1) q ord pos f) (hpd : p + 1 ≤ dst) (hds : dst ≤ src) (hsrc : src < n)
    (hc : f (ord dst) = c) (hseg : ∀ j, dst < j → j ≤ src → f (ord j) = c + 1)
    (htie : ∀ i j, p + 1 ≤ i → i < j → j < n → f (ord i) = f (ord j) → i ≠ dst → j ≠ dst → j ≠ src → ord i < ord j) :
    Wp (if dst ≠ src then bucketSort (dst + 1) src q else pure q) (fun q' => q'.bidx = q.bidx ∧ ∃ ord' pos', QOK false n mx (p + 1) q' ord' pos' f ∧
      (∀ i, i ≤ dst → ord' i = ord i) ∧ (∀ i, i < n → f (ord' i) = f (ord i)) ∧ ∀ i j, p + 1 ≤ i → i < j → j < n → f (ord' i) = f (ord' j) → i ≠ dst → j ≠ dst → ord' i < ord' j) := by
  by_cases hne : dst = src
  · rw [if_neg (by simpa using hne), wp_pure]
    exact ⟨rfl, ord, pos, h, fun _ _ => rfl, fun _ _ => rfl, fun i j h1 h2 h3 h4 h5 h6 => htie i j h1 h2 h3 h4 h5 h6 (hne ▸ h6)⟩
  · rw [if_pos hne]
    refine (bucketSort_spec h (by omega) hsrc (fun i h1 h2 => by rw [hseg i (by omega) h2, hseg src (by omega) le_rfl]) (fun i j h1 h2 h3 => ?_)).mono ?_
    · exact htie i j (by omega) h2 (by omega) (by rw [hseg i (by omega) (by omega), hseg j (by omega) (by omega)]) (by omega) (by omega) (by omega)
    · rintro q' ⟨hb, ord', pos', hq', h1, h2, h3⟩
      have hfo : ∀ i, i < n → f (ord' i) = f (ord i) := by
        intro i hi
        by_cases h4 : dst + 1 ≤ i ∧ i ≤ src
        · obtain ⟨j, h5, h6, h7⟩ := h2 i h4.1 h4.2
          rw [h7, hseg j (by omega) h6, hseg i (by omega) h4.2]
        · rw [h1 i (by omega)]
      refine ⟨hb, ord', pos', hq', fun i hi => h1 i (by omega), hfo, fun i j h4 h5 h6 h7 h8 h9 => ?_⟩
      rw [hfo i (by omega), hfo j h6] at h7
      by_cases h10 : dst + 1 ≤ i ∧ i ≤ src
      · by_cases h11 : j ≤ src
        · exact h3 i j h10.1 h5 h11
        · obtain ⟨i', h12, h13, h14⟩ := h2 i h10.1 h10.2
          rw [h14, h1 j (by omega)]
          exact htie i' j (by omega) (by omega) h6 (by rw [hseg i' (by omega) h13, ← h7, hseg i (by omega) h10.2]) (by omega) h9 (by omega)
      · rw [h1 i (by omega)]
        by_cases h11 : dst + 1 ≤ j ∧ j ≤ src
        · -- a position before `dst` has a smaller count than one after
          exfalso
          have h12 := h.sorted (i := i) (j := dst) h4 (by omega) (by omega)
          have h13 := hseg j (by omega) h11.2
          omega
        · rw [h1 j (by omega)]
          exact htie i j h4 h5 h6 h7 h8 h9 (by omega)

/-- After the swap that moves a vertex with its decreased count to position `dst`, the order among vertices with equal counts is restored. -/
theorem restoreOrder_spec {n mx p c src dst : Nat} {q : Queue} {ord pos f : Nat → Nat} (h : QOK false n mx (p + 1) q ord pos f) (hpd : p + 1 ≤ dst) (hds : dst ≤ src) (hsrc : src < n)
    (hc : f (ord dst) = c) (hafter : ∀ j, dst < j → j < n → c < f (ord j)) (hseg : ∀ j, dst < j → j ≤ src → f (ord j) = c + 1)
    (htie : ∀ i j, p + 1 ≤ i → i < j → j < n → f (ord i) = f (ord j) → i ≠ dst → j ≠ dst → j ≠ src → ord i < ord j) :
    Wp (restoreOrder p c src dst q) (fun q' => ∃ ord' pos', QOK true n mx (p + 1) q' ord' pos' f ∧ ∀ i, i ≤ p → ord' i = ord i) := by
  unfold restoreOrder
  have hjoin : ∀ k : Queue → Option Queue, (if dst ≠ src then bucketSort (dst + 1) src q >>= k else (pure q : Option Queue) >>= k) = (if dst ≠ src then bucketSort (dst + 1) src q else pure q) >>= k := by
    intro k; split <;> rfl
  dsimp only
  rw [hjoin, wp_bind]
  refine (restoreFirst_spec h hpd hds hsrc hc hseg htie).mono ?_
  rintro q1 ⟨hb1, ord1, pos1, hq1, hlow, hfo, htie1⟩
  have hdn : dst < n := by omega
  have hcm : c ≤ mx := by rw [← hc]; exact h.le _ (h.ok.ord_lt dst hdn)
  obtain ⟨B, hB, hBi⟩ := hq1.bk c hcm
  rw [wp_bind, wp_eq hB]
  -- the new bucket
  have second : ∀ bi B', bi.len = mx + 1 → (∀ b, b ≠ c → bi.get b = q1.bidx.get b) → bi.get c = some B' → p + 1 ≤ B' → (∀ i, p + 1 ≤ i → i < n → (i < B' ↔ f (ord1 i) < c)) →
      Wp (bi.get c >>= fun b => bucketSort b dst { q1 with bidx := bi }) (fun q' => ∃ ord' pos', QOK true n mx (p + 1) q' ord' pos' f ∧ ∀ i, i ≤ p → ord' i = ord i) := by
    intro bi B' hbl hbo hbc hBp hBi'
    rw [wp_bind, wp_eq hbc]
    have hq2 : QOK false n mx (p + 1) { q1 with bidx := bi } ord1 pos1 f :=
      ⟨hq1.sv_len, hq1.vidx_len, hq1.cnt_len, hbl, hq1.sv, hq1.vidx, hq1.cnt, hq1.ok, hq1.le, fun b hb => by
        by_cases hbc' : b = c
        · subst hbc'; exact ⟨B', hbc, hBi'⟩
        · obtain ⟨B2, g1, g2⟩ := hq1.bk b hb
          exact ⟨B2, by show bi.get b = _; rw [hbo b hbc', g1], g2⟩, fun hx => absurd hx Bool.false_ne_true⟩
    have hc1 : f (ord1 dst) = c := by rw [hfo dst hdn, hc]
    have hBd : B' ≤ dst := by
      by_contra hx
      have := (hBi' dst hpd hdn).1 (by omega)
      omega
    have hsegB : ∀ i, B' ≤ i → i ≤ dst → f (ord1 i) = c := by
      intro i h1 h2
      have h3 := hq1.sorted (i := i) (j := dst) (by omega) h2 hdn
      have h4 : ¬ f (ord1 i) < c := fun hx => by
        have := (hBi' i (by omega) (by omega)).2 hx; omega
      omega
    refine (bucketSort_spec hq2 hBd hdn (fun i h1 h2 => by rw [hsegB i h1 h2, hc1]) (fun i j h1 h2 h3 => ?_)).mono ?_
    · exact htie1 i j (by omega) h2 (by omega) (by rw [hsegB i h1 (by omega), hsegB j (by omega) (by omega)]) (by omega) (by omega)
    · rintro q' ⟨-, ord', pos', hq', h1, h2, h3⟩
      have hfo' : ∀ i, i < n → f (ord' i) = f (ord1 i) := by
        intro i hi
        by_cases h4 : B' ≤ i ∧ i ≤ dst
        · obtain ⟨j, h5, h6, h7⟩ := h2 i h4.1 h4.2
          rw [h7, hsegB j h5 h6, hsegB i h4.1 h4.2]
        · rw [h1 i (by omega)]
      refine ⟨ord', pos', ⟨hq'.sv_len, hq'.vidx_len, hq'.cnt_len, hq'.bidx_len, hq'.sv, hq'.vidx, hq'.cnt, hq'.ok, hq'.le, hq'.bk, fun _ i j h4 h5 h6 h7 => ?_⟩, fun i hi => by rw [h1 i (by omega), hlow i (by omega)]⟩
      rw [hfo' i (by omega), hfo' j h6] at h7
      by_cases h8 : B' ≤ i ∧ i ≤ dst
      · by_cases h9 : j ≤ dst
        · exact h3 i j h8.1 h5 h9
        · exfalso
          have h10 := hsegB i h8.1 h8.2
          have h11 := hafter j (by omega) h6
          rw [hfo j h6] at h7
          omega
      · rw [h1 i (by omega)]
        by_cases h9 : B' ≤ j ∧ j ≤ dst
        · exfalso
          have h10 := hsegB j h9.1 h9.2
          have h11 := (hBi' i h4 (by omega)).1 (by omega)
          omega
        · rw [h1 j (by omega)]
          exact htie1 i j h4 h5 h6 h7 (by omega) (by omega)
  by_cases hBp : B ≤ p
  · rw [if_pos hBp, wp_bind, Buf.wp_set]
    refine ⟨by rw [hq1.bidx_len]; omega, ?_⟩
    refine second _ (p + 1) (by simpa using hq1.bidx_len) (fun b hb => Buf.get_upd_ne _ _ hb) (Buf.get_upd_self _ _ (by rw [hq1.bidx_len]; omega)) le_rfl (fun i h1 h2 => ⟨fun h3 => by omega, fun h3 => ?_⟩)
    have := (hBi i h1 h2).2 h3
    omega
  · rw [if_neg hBp, wp_bind, wp_pure]
    exact second _ B hq1.bidx_len (fun _ _ => rfl) hB (by omega) hBi

/-- State after the swap that moves a vertex with its decreased count `c` from `src` to `dst`. -/
structure Swapped (st : Bool) (n mx p c src dst : Nat) (q : Queue) (ord pos f : Nat → Nat) : Prop where
  ok : QOK false n mx (p + 1) q ord pos f
  pd : p + 1 ≤ dst
  ds : dst ≤ src
  src_lt : src < n
  count : f (ord dst) = c
  after : ∀ j, dst < j → j < n → c < f (ord j)
  seg : ∀ j, dst < j → j ≤ src → f (ord j) = c + 1
  tie : st = true → ∀ i j, p + 1 ≤ i → i < j → j < n → f (ord i) = f (ord j) → i ≠ dst → j ≠ dst → j ≠ src → ord i < ord j

theorem swapInSort_spec {st : Bool} {n mx p v : Nat} {q : Queue} {ord pos f : Nat → Nat} (h : QOK st n mx (p + 1) q ord pos f)
    (hv : v < n) (hp : p < pos v) (hc : 1 ≤ f v) :
    Wp (swapInSort p v q) (fun r => ∃ ord' pos', Swapped st n mx p r.1 r.2.1 r.2.2.1 r.2.2.2 ord' pos' (fun x => if x = v then f v - 1 else f x) ∧ ∀ i, i ≤ p → ord' i = ord i) := by
  have hsrc := h.ok.pos_lt v hv
  have hos := h.ok.ord_pos v hv
  have hcm := h.le v hv
  obtain ⟨B, hB, hBi⟩ := h.bk _ hcm
  have hBs : B ≤ pos v := by
    by_contra hx
    have := (hBi (pos v) (by omega) hsrc).1 (by omega)
    rw [hos] at this; omega
  unfold swapInSort
  rw [wp_bind, wp_eq (h.vidx v hv), wp_bind, wp_eq (h.cnt v hv), if_neg (by omega), wp_bind, wp_eq hB]
  dsimp only
  generalize hdst : (if B ≤ p then p + 1 else B) = dst
  have hd1 : B ≤ dst ∧ p + 1 ≤ dst ∧ dst ≤ pos v := by split at hdst <;> omega
  have hdn : dst < n := by omega
  have hfd : f (ord dst) = f v := by
    have h1 := h.sorted (i := dst) (j := pos v) (by omega) (by omega) hsrc
    rw [hos] at h1
    have h2 : ¬ f (ord dst) < f v := fun hx => by
      have := (hBi dst (by omega) hdn).2 hx; omega
    omega
  -- the new order
  have hodn := h.ok.ord_lt dst hdn
  have hpod := h.ok.pos_ord dst hdn
  let ord' : Nat → Nat := fun i => if i = dst then v else if i = pos v then ord dst else ord i
  let pos' : Nat → Nat := fun x => if x = v then dst else if x = ord dst then pos v else pos x
  have hdv : ord dst = v ↔ dst = pos v := by
    constructor
    · intro hx; rw [← hpod, hx]
    · intro hx; rw [hx, hos]
  have hok : OrdOK n ord' pos' := by
    refine ⟨fun i hi => ?_, fun x hx => ?_, fun x hx => ?_, fun i hi => ?_⟩
    · simp only [ord']
      split
      · exact hv
      · split
        · exact hodn
        · exact h.ok.ord_lt i hi
    · simp only [pos']
      split
      · exact hdn
      · split
        · exact hsrc
        · exact h.ok.pos_lt x hx
    · simp only [ord', pos']
      by_cases h1 : x = v
      · subst h1; simp
      · simp only [h1, if_false]
        by_cases h2 : x = ord dst
        · simp only [h2, if_true]
          rw [if_neg]
          intro hx; exact h1 (h2.trans (hdv.2 hx.symm))
        · simp only [h2, if_false]
          have h3 : pos x ≠ dst := fun hx' => h2 (by rw [← hx', h.ok.ord_pos x hx])
          have h4 : pos x ≠ pos v := fun hx' => h1 (by rw [← h.ok.ord_pos x hx, hx', hos])
          simp [h3, h4, h.ok.ord_pos x hx]
    · simp only [ord', pos']
      by_cases h1 : i = dst
      · subst h1; simp
      · simp only [h1, if_false]
        by_cases h2 : i = pos v
        · simp only [h2, if_true]
          rw [if_neg]
          intro hx; exact h1 (h2.trans (hdv.1 hx).symm)
        · simp only [h2, if_false]
          have h3 : ord i ≠ v := fun hx => h2 (by rw [← hx, h.ok.pos_ord i hi])
          have h4 : ord i ≠ ord dst := fun hx => h1 (by rw [← h.ok.pos_ord i hi, hx, hpod])
          simp [h3, h4, h.ok.pos_ord i hi]
  let f' : Nat → Nat := fun x => if x = v then f v - 1 else f x
  have hford : ∀ i, i < n → f' (ord' i) = if i = dst then f v - 1 else f (ord i) := by
    intro i hi
    simp only [f', ord']
    by_cases h1 : i = dst
    · simp [h1]
    · simp only [h1, if_false]
      by_cases h2 : i = pos v
      · simp only [h2, if_true, hos]
        rw [if_neg (fun hx => h1 (by rw [h2]; exact (hdv.1 hx).symm)), hfd]
      · simp only [h2, if_false]
        rw [if_neg (fun hx => h2 (by rw [← hx, h.ok.pos_ord i hi]))]
  -- the buckets
  have hbk : ∀ bi : Buf Nat, bi.len = mx + 1 → (∀ b, b ≠ f v - 1 → bi.get b = q.bidx.get b) →
      (B ≤ p → bi.get (f v - 1) = some dst) → (p < B → bi.get (f v - 1) = q.bidx.get (f v - 1)) →
      ∀ b, b ≤ mx → ∃ B', (bi.upd (f v) (dst + 1)).get b = some B' ∧ ∀ i, p + 1 ≤ i → i < n → (i < B' ↔ f' (ord' i) < b) := by
    intro bi hbl hb1 hb2 hb3 b hb
    by_cases h1 : b = f v
    · subst h1
      refine ⟨dst + 1, Buf.get_upd_self _ _ (by omega), fun i hi hn => ?_⟩
      rw [hford i hn]
      by_cases h2 : i = dst
      · simp [h2]; omega
      · rw [if_neg h2, ← hBi i hi hn]
        split at hdst <;> omega
    · rw [Buf.get_upd_ne _ _ h1]
      by_cases h2 : b = f v - 1 ∧ B ≤ p
      · obtain ⟨rfl, h3⟩ := h2
        refine ⟨dst, hb2 h3, fun i hi hn => ?_⟩
        rw [if_pos h3] at hdst
        rw [hford i hn]
        constructor
        · omega
        · intro h4
          exfalso
          split at h4
          · omega
          · have := (hBi i hi hn).2 (by omega); omega
      · have hbe : bi.get b = q.bidx.get b := by
          by_cases h3 : b = f v - 1
          · subst h3; exact hb3 (by omega)
          · exact hb1 b h3
        obtain ⟨B', h3, h4⟩ := h.bk b hb
        refine ⟨B', by rw [hbe, h3], fun i hi hn => ?_⟩
        rw [hford i hn, h4 i hi hn]
        by_cases h5 : i = dst
        · subst h5; rw [if_pos rfl, hfd]; omega
        · rw [if_neg h5]
  have hfrz : ∀ i, i ≤ p → ord' i = ord i := fun i hi => by
    simp only [ord']
    rw [if_neg (by omega), if_neg (by omega)]
  have hafter : ∀ j, dst < j → j < n → f v - 1 < f (ord j) := by
    intro j h1 h2
    by_contra hx
    have := (hBi j (by omega) h2).2 (by omega)
    omega
  have restore : ∀ q1, QOK false n mx (p + 1) q1 ord' pos' f' → Swapped st n mx p (f v - 1) (pos v) dst q1 ord' pos' f' := by
    intro q1 hq1
    refine ⟨hq1, hd1.2.1, hd1.2.2, hsrc, by rw [hford dst hdn, if_pos rfl], fun j h1 h2 => ?_, fun j h1 h2 => ?_, ?_⟩
    · rw [hford j h2, if_neg (by omega)]; exact hafter j h1 h2
    · rw [hford j (by omega), if_neg (by omega)]
      have h3 := h.sorted (i := dst) (j := j) (by omega) (by omega) (by omega)
      have h4 := h.sorted (i := j) (j := pos v) (by omega) h2 hsrc
      rw [hos] at h4
      omega
    · rintro rfl i j h1 h2 h3 h4 h5 h6 h7
      rw [hford i (by omega), hford j h3, if_neg h5, if_neg h6] at h4
      simp only [ord']
      rw [if_neg h5, if_neg h6, if_neg h7]
      by_cases h8 : i = pos v
      · subst h8
        rw [if_pos rfl]
        rw [hos] at h4
        rcases Nat.lt_or_eq_of_le hd1.2.2 with h9 | h9
        · exact h.tie rfl dst j (by omega) (by omega) h3 (by rw [hfd, h4])
        · exact absurd h9.symm h5
      · rw [if_neg h8]
        exact h.tie rfl i j h1 h2 h3 h4
  have main : ∀ bi : Buf Nat, bi.len = mx + 1 → (∀ b, b ≠ f v - 1 → bi.get b = q.bidx.get b) →
      (B ≤ p → bi.get (f v - 1) = some dst) → (p < B → bi.get (f v - 1) = q.bidx.get (f v - 1)) →
      Wp (do
        let bidx ← bi.set (f v) (dst + 1)
        let cnt ← q.cnt.set v (f v - 1)
        let y ← q.sv.get dst
        let sv ← q.sv.set (pos v) y
        let sv ← sv.set dst v
        let a ← sv.get dst
        let vidx ← q.vidx.set a dst
        let b ← sv.get (pos v)
        let vidx ← vidx.set b (pos v)
        pure (f v - 1, pos v, dst, (⟨cnt, sv, vidx, bidx⟩ : Queue)))
        (fun r => ∃ ord' pos', Swapped st n mx p r.1 r.2.1 r.2.2.1 r.2.2.2 ord' pos' (fun x => if x = v then f v - 1 else f x) ∧ ∀ i, i ≤ p → ord' i = ord i) := by
    intro bi hbl hb1 hb2 hb3
    have e1 : ∀ i, i < n → ((q.sv.upd (pos v) (ord dst)).upd dst v).get i = some (ord' i) := by
      intro i hi
      simp only [ord']
      by_cases h1 : i = dst
      · subst h1; rw [Buf.get_upd_self _ _ (by rw [Buf.len_upd, h.sv_len]; exact hi)]; simp
      · rw [Buf.get_upd_ne _ _ h1, if_neg h1]
        by_cases h2 : i = pos v
        · subst h2; rw [Buf.get_upd_self _ _ (by rw [h.sv_len]; exact hi)]; simp
        · rw [Buf.get_upd_ne _ _ h2, if_neg h2, h.sv i hi]
    have hop : ord' (pos v) = ord dst := by
      simp only [ord']
      by_cases h1 : pos v = dst
      · rw [if_pos h1]; exact (hdv.2 h1.symm).symm
      · simp [h1]
    rw [wp_bind, Buf.wp_set]
    refine ⟨by omega, ?_⟩
    rw [wp_bind, Buf.wp_set]
    refine ⟨by rw [h.cnt_len]; exact hv, ?_⟩
    rw [wp_bind, wp_eq (h.sv dst hdn), wp_bind, Buf.wp_set]
    refine ⟨by rw [h.sv_len]; exact hsrc, ?_⟩
    rw [wp_bind, Buf.wp_set]
    refine ⟨by rw [Buf.len_upd, h.sv_len]; exact hdn, ?_⟩
    rw [wp_bind, wp_eq (e1 dst hdn), wp_bind, show ord' dst = v by simp [ord'], Buf.wp_set]
    refine ⟨by rw [h.vidx_len]; exact hv, ?_⟩
    rw [wp_bind, wp_eq (e1 _ hsrc), hop, wp_bind, Buf.wp_set]
    refine ⟨by rw [Buf.len_upd, h.vidx_len]; exact hodn, ?_⟩
    rw [wp_pure]
    refine ⟨ord', pos', restore _ ⟨?_, ?_, ?_, ?_, e1, fun x hx => ?_, fun x hx => ?_, hok, fun x hx => ?_, hbk bi hbl hb1 hb2 hb3, fun hx => absurd hx Bool.false_ne_true⟩, hfrz⟩
    · simpa using h.sv_len
    · simpa using h.vidx_len
    · simpa using h.cnt_len
    · simpa using hbl
    · simp only [pos']
      by_cases h1 : x = ord dst
      · subst h1
        rw [Buf.get_upd_self _ _ (by rw [Buf.len_upd, h.vidx_len]; exact hx)]
        by_cases h2 : ord dst = v
        · rw [if_pos h2, hdv.1 h2]
        · rw [if_neg h2, if_pos rfl]
      · rw [Buf.get_upd_ne _ _ h1, if_neg h1]
        by_cases h2 : x = v
        · subst h2; rw [Buf.get_upd_self _ _ (by rw [h.vidx_len]; exact hx), if_pos rfl]
        · rw [Buf.get_upd_ne _ _ h2, if_neg h2, h.vidx x hx]
    · by_cases h2 : x = v
      · subst h2; simp only [f', if_true]; rw [Buf.get_upd_self _ _ (by rw [h.cnt_len]; exact hx)]
      · simp only [f', h2, if_false]; rw [Buf.get_upd_ne _ _ h2, h.cnt x hx]
    · have := h.le x hx
      simp only [f']
      split <;> omega
  by_cases hBp : B ≤ p
  · rw [if_pos hBp, wp_bind, Buf.wp_set]
    refine ⟨by rw [h.bidx_len]; omega, ?_⟩
    refine main _ (by simpa using h.bidx_len) (fun b hb => Buf.get_upd_ne _ _ hb) (fun _ => Buf.get_upd_self _ _ (by rw [h.bidx_len]; omega)) (fun hx => by omega)
  · rw [if_neg hBp, wp_bind, wp_pure]
    exact main _ h.bidx_len (fun b _ => rfl) (fun hx => absurd hx hBp) (fun _ => rfl)

theorem decreaseV_spec {st : Bool} {n mx p v : Nat} {q : Queue} {ord pos f : Nat → Nat} (h : QOK st n mx (p + 1) q ord pos f)
    (hv : v < n) (hp : p < pos v) (hc : 1 ≤ f v) :
    Wp (decreaseV st p v q) (fun q' => ∃ ord' pos', QOK st n mx (p + 1) q' ord' pos' (fun x => if x = v then f v - 1 else f x) ∧ ∀ i, i ≤ p → ord' i = ord i) := by
  unfold decreaseV
  rw [wp_bind]
  refine (swapInSort_spec h hv hp hc).mono ?_
  rintro ⟨c, src, dst, q1⟩ ⟨ord', pos', hs, hfrz⟩
  dsimp only at hs ⊢
  cases st with
  | false => exact (wp_pure).2 ⟨ord', pos', hs.ok, hfrz⟩
  | true =>
    rw [if_pos rfl]
    refine (restoreOrder_spec hs.ok hs.pd hs.ds hs.src_lt hs.count hs.after hs.seg (hs.tie rfl)).mono ?_
    rintro q2 ⟨o2, p2, h1, h2⟩
    exact ⟨o2, p2, h1, fun i hi => by rw [h2 i hi, hfrz i hi]⟩

/-! ### The sort, with allocation -/

/-- Blocks owned by a sort result. -/
def SortResult.own (s : SortResult) : Multiset Nat := ptrOwn s.cnt + (ptrOwn s.sv + (ptrOwn s.vidx + ptrOwn s.bidx))

/-- The arrays of a sort result. -/
def SortResult.queue (s : SortResult) : Queue := ⟨ptrBuf s.cnt, ptrBuf s.sv, ptrBuf s.vidx, ptrBuf s.bidx⟩

theorem freeSort_spec {s : SortResult} {w : World} {Q : Unit → World → Prop} (L : Multiset Nat)
    (hl : w.live = s.own + L) (hq : ∀ w', w'.fails = w.fails → w'.live = L → w'.err = w.err → Q () w') : WpM (freeSort s) w Q := by
  unfold freeSort
  rw [wpM_bind]
  refine wpM_freePtr (ptrOwn s.sv + (ptrOwn s.vidx + ptrOwn s.bidx) + L) (by rw [hl]; unfold SortResult.own; abel) fun w1 a1 a2 a3 => ?_
  rw [wpM_bind]
  refine wpM_freePtr (ptrOwn s.vidx + ptrOwn s.bidx + L) (by rw [a2]; abel) fun w2 b1 b2 b3 => ?_
  rw [wpM_bind]
  refine wpM_freePtr (ptrOwn s.bidx + L) (by rw [b2]; abel) fun w3 c1 c2 c3 => ?_
  refine wpM_freePtr L c2 fun w4 d1 d2 d3 => ?_
  exact hq w4 (by rw [d1, c1, b1, a1]) d2 (by rw [d3, c3, b3, a3])

/-- What the sort guarantees. -/
def SortPost (n : Nat) (rows : Nat → List Nat) (indices : Bool) (w : World) (r : Except ErrorCode SortResult) (w' : World) : Prop :=
  match r with
  | .error e => ErrPost w False e w'
  | .ok s => w'.fails = w.fails ∧ w'.live = s.own + w.live ∧ w'.err = w.err ∧
      ∃ ord, OrdOK n ord (rank n (indeg rows n)) ∧ (∀ i, i < n → s.queue.sv.get i = some (ord i)) ∧
        (indices = true → ∃ mx, ∀ st, QOK st n mx 0 s.queue ord (rank n (indeg rows n)) (indeg rows n))

theorem bucket_rank {n : Nat} {f : Nat → Nat} {v b : Nat} (hv : v < n) : rank n f v < below n f b ↔ f v < b := by
  constructor
  · intro h
    by_contra hx
    have := below_mono n f (show b ≤ f v by omega)
    unfold rank at h; omega
  · intro h
    exact lt_of_lt_of_le (rank_lt_below hv) (below_mono n f (by omega))

theorem finishSort_spec {n mx : Nat} {rows : Nat → List Nat} (indices : Bool) {cnt sv bidx : Blk Nat} {w0 w : World}
    (hcl : cnt.buf.len = n) (h : ∀ x, x < n → cnt.buf.get x = some (indeg rows n x)) (hm : ∀ x, x < n → indeg rows n x ≤ mx) (hs : sv.buf.len = n)
    (hil : bidx.buf.len = mx + 1) (hb : ∀ c, c ≤ mx → bidx.buf.get c = some (below n (indeg rows n) (c + 1)))
    (hf : w.fails = w0.fails) (hl : w.live = {cnt.id} + ({sv.id} + ({bidx.id} + w0.live))) (he : w.err = w0.err) :
    WpM (finishSort n indices cnt sv bidx) w (SortPost n rows indices w0) := by
  obtain ⟨ord, hord⟩ := ordOK_rank n (indeg rows n)
  unfold finishSort
  cases indices with
  | true =>
    simp only [if_true]
    rw [wpM_bind]
    refine wpM_alloc (fun w1 hn k1 k2 k3 => ?_) (fun i w1 k1 k2 k3 => ?_)
    · dsimp only
      rw [wpM_bind]
      refine freeSort_spec w0.live (by rw [k2, hl]; simp only [SortResult.own, ptrOwn]; abel) fun w2 l1 l2 l3 => ?_
      exact wpM_fail fun w3 m1 m2 m3 => ⟨by rw [m1, l1, k1, hf], by rw [m2, l2], by rw [m3], Or.inr ⟨rfl, by rwa [noFail_congr hf] at hn⟩⟩
    · dsimp only
      rw [wpM_bind, wpM_useK]
      refine ⟨by rw [k2, hl]; simp, ?_⟩
      refine (fillSorted_spec true h hm hs (fun _ => rfl) hil hb).mono ?_
      rintro ⟨s, v, b⟩ ⟨h1, h2, h3, h4, h5⟩
      dsimp only at h1 h2 h3 h4 h5 ⊢
      rw [wpM_pure]
      have hsv : ∀ i, i < n → s.get i = some (ord i) := by
        intro i hi
        have := h2 (ord i) (hord.ord_lt i hi)
        rwa [hord.pos_ord i hi] at this
      refine ⟨by rw [k1, hf], ?_, by rw [k3, he], ord, hord, hsv, fun _ => ⟨mx, fun st => ⟨h1, (h3 rfl).1, hcl, h4, hsv, (h3 rfl).2, h, hord, hm, fun c hc => ⟨_, h5 c hc, fun i _ hi => ?_⟩, fun _ i j _ hij hj he => ?_⟩⟩⟩
      · rw [k2, hl]; simp only [SortResult.own, ptrOwn]; abel
      · have := bucket_rank (f := indeg rows n) (b := c) (hord.ord_lt i hi)
        rwa [hord.pos_ord i hi] at this
      · by_contra hx
        have h6 := hord.pos_ord i (by omega)
        have h7 := hord.pos_ord j hj
        rcases Nat.lt_or_eq_of_le (not_lt.1 hx) with h8 | h8
        · have := rank_strict (f := indeg rows n) (hord.ord_lt j hj) (Or.inr ⟨he.symm, h8⟩)
          omega
        · rw [h8] at h7; omega
  | false =>
    simp only [Bool.false_eq_true, if_false]
    rw [wpM_bind, wpM_useK]
    refine ⟨by rw [hl]; simp, ?_⟩
    refine (fillSorted_spec false h hm hs (by simp) hil hb).mono ?_
    rintro ⟨s, v, b⟩ ⟨h1, h2, h3, h4, h5⟩
    dsimp only at h1 h2 h3 h4 h5 ⊢
    rw [wpM_bind]
    refine wpM_freeId _ hl fun w1 k1 k2 k3 => ?_
    rw [wpM_bind]
    refine wpM_freeId ({sv.id} + w0.live) (by rw [k2]; abel) fun w2 l1 l2 l3 => ?_
    rw [wpM_pure]
    refine ⟨by rw [l1, k1, hf], ?_, by rw [l3, k3, he], ord, hord, fun i hi => ?_, by simp⟩
    · rw [l2]; simp [SortResult.own, ptrOwn]
    · have := h2 (ord i) (hord.ord_lt i hi)
      rwa [hord.pos_ord i hi] at this

theorem sortByInwards_spec {cfg : Cfg} {g : Digraph} {rows : Nat → List Nat} {w : World} (indices : Bool)
    (h : g.Repr cfg rows) (hl : ∀ i ∈ g.ids, i ∈ w.live) :
    WpM (sortByInwards g indices) w (SortPost g.n rows indices w) := by
  unfold sortByInwards
  rw [wpM_bind]
  refine wpM_alloc (fun w1 hn k1 k2 k3 => ?_) (fun i w1 k1 k2 k3 => ?_)
  · rw [wpM_bind]
    refine wpM_alloc (fun w2 hn2 l1 l2 l3 => ?_) (fun j w2 l1 l2 l3 => ?_)
    · dsimp only
      rw [wpM_bind]
      refine freeSort_spec w.live (by rw [l2, k2]; simp [SortResult.own]) fun w3 m1 m2 m3 => ?_
      exact wpM_fail fun w4 p1 p2 p3 => ⟨by rw [p1, m1, l1, k1], by rw [p2, m2], by rw [p3], Or.inr ⟨rfl, hn⟩⟩
    · dsimp only
      rw [wpM_bind]
      refine freeSort_spec w.live (by rw [l2, k2]; simp [SortResult.own]) fun w3 m1 m2 m3 => ?_
      exact wpM_fail fun w4 p1 p2 p3 => ⟨by rw [p1, m1, l1, k1], by rw [p2, m2], by rw [p3], Or.inr ⟨rfl, hn⟩⟩
  · rw [wpM_bind]
    refine wpM_alloc (fun w2 hn2 l1 l2 l3 => ?_) (fun j w2 l1 l2 l3 => ?_)
    · dsimp only
      rw [wpM_bind]
      refine freeSort_spec w.live (by rw [l2, k2]; simp [SortResult.own]) fun w3 m1 m2 m3 => ?_
      exact wpM_fail fun w4 p1 p2 p3 => ⟨by rw [p1, m1, l1, k1], by rw [p2, m2], by rw [p3], Or.inr ⟨rfl, by rwa [noFail_congr k1] at hn2⟩⟩
    · dsimp only
      rw [wpM_bind, wpM_useK]
      refine ⟨?_, ?_⟩
      · intro x hx
        rw [l2, k2]
        rcases List.mem_cons.1 hx with rfl | hx
        · simp
        · exact Multiset.mem_add.2 (Or.inr (Multiset.mem_add.2 (Or.inr (hl x hx))))
      refine (countInwards_spec h.csr rfl (fun x hx => by simp [hx])).mono ?_
      rintro c ⟨c1, c2⟩
      rw [wpM_bind, wpM_useK]
      refine ⟨by rw [l2, k2]; simp, ?_⟩
      refine (maxInwards_spec c2).mono fun mx hmx => ?_
      have hnf : ∀ w' : World, w'.fails = w2.fails → (w'.NoFail ↔ w.NoFail) := fun w' hw' => noFail_congr (by rw [hw', l1, k1])
      rw [wpM_bind]
      refine wpM_alloc (fun w3 hn3 m1 m2 m3 => ?_) (fun k w3 m1 m2 m3 => ?_)
      · rw [wpM_bind]
        refine wpM_alloc (fun w4 hn4 p1 p2 p3 => ?_) (fun k' w4 p1 p2 p3 => ?_)
        · dsimp only
          simp only [freePtr, wpM_bind, wpM_pure]
          refine freeSort_spec w.live (by rw [p2, m2, l2, k2]; simp only [SortResult.own, ptrOwn]; abel) fun w5 q1 q2 q3 => ?_
          exact wpM_fail fun w6 r1 r2 r3 => ⟨by rw [r1, q1, p1, m1, l1, k1], by rw [r2, q2], by rw [r3], Or.inr ⟨rfl, by rwa [hnf w2 rfl] at hn3⟩⟩
        · dsimp only
          simp only [freePtr, wpM_bind, wpM_pure]
          refine freeSort_spec w.live (by rw [p2, m2, l2, k2]; simp only [SortResult.own, ptrOwn]; abel) fun w5 q1 q2 q3 => ?_
          exact wpM_fail fun w6 r1 r2 r3 => ⟨by rw [r1, q1, p1, m1, l1, k1], by rw [r2, q2], by rw [r3], Or.inr ⟨rfl, by rwa [hnf w2 rfl] at hn3⟩⟩
      · rw [wpM_bind]
        refine wpM_alloc (fun w4 hn4 p1 p2 p3 => ?_) (fun k' w4 p1 p2 p3 => ?_)
        · dsimp only
          simp only [freePtr, wpM_bind, wpM_pure]
          refine wpM_freeId _ (by rw [p2, m2]) fun w5 q1 q2 q3 => ?_
          refine freeSort_spec w.live (by rw [q2, l2, k2]; simp only [SortResult.own, ptrOwn]; abel) fun w6 r1 r2 r3 => ?_
          exact wpM_fail fun w7 s1 s2 s3 => ⟨by rw [s1, r1, q1, p1, m1, l1, k1], by rw [s2, r2], by rw [s3], Or.inr ⟨rfl, by rwa [hnf w3 m1] at hn4⟩⟩
        · dsimp only
          rw [wpM_bind, wpM_useK]
          refine ⟨by rw [p2, m2, l2, k2]; simp, ?_⟩
          refine (bucketEnds_spec c2 hmx rfl (fun c hc => by simp; omega) rfl).mono ?_
          rintro b ⟨b1, b2⟩
          rw [wpM_bind]
          refine wpM_freeId ({k'} + w2.live) (by rw [p2, m2]; abel) fun w5 q1 q2 q3 => ?_
          exact finishSort_spec (mx := mx) indices c1 c2 hmx rfl b1 b2 (by rw [q1, p1, m1, l1, k1]) (by rw [q2, l2, k2]; abel) (by rw [q3, p3, m3, l3, k3])

/-! ### Decreasing along a list -/

/-- Decrease every vertex of `l` that is in `E` (and only those), when the test is the same throughout. -/
theorem decreaseList_spec {st : Bool} {n mx p : Nat} {body : Nat → Queue → Option Queue} {ord pos f : Nat → Nat} (E : Nat → Prop) [DecidablePred E]
    {q : Queue} (h : QOK st n mx (p + 1) q ord pos f) (l : List Nat) (hE : ∀ x ∈ l, E x → x < n ∧ p < pos x)
    (hcnt : ∀ x, E x → l.count x ≤ f x)
    (hbody : ∀ x ∈ l, ∀ q' ord' pos' f', QOK st n mx (p + 1) q' ord' pos' f' → (∀ i, i ≤ p → ord' i = ord i) → body x q' = if E x then decreaseV st p x q' else some q') :
    Wp (l.foldlM (fun q x => body x q) q) (fun q' => ∃ ord' pos', QOK st n mx (p + 1) q' ord' pos' (fun x => if E x then f x - l.count x else f x) ∧
      ∀ i, i ≤ p → ord' i = ord i) := by
  refine wp_foldlM (fun pre q' => ∃ ord' pos', QOK st n mx (p + 1) q' ord' pos' (fun x => if E x then f x - pre.count x else f x) ∧
      ∀ i, i ≤ p → ord' i = ord i) l q ⟨ord, pos, by simpa using h, fun i _ => rfl⟩ ?_
  rintro pre x post q' hsplit ⟨ord', pos', hq, hfr⟩
  rw [hbody x (by simp [hsplit]) q' ord' pos' _ hq hfr]
  by_cases hx : E x
  · rw [if_pos hx]
    obtain ⟨hxn, hxp⟩ := hE x (by simp [hsplit]) hx
    have hpos : p < pos' x := by
      by_contra hlt
      have h1 := hq.ok.ord_pos x hxn
      have h2 := hfr (pos' x) (by omega)
      have h3 := h.ok.pos_ord (pos' x) (hq.ok.pos_lt x hxn)
      rw [← h2, h1] at h3
      omega
    have hc := hcnt x hx
    rw [hsplit, List.count_append, List.count_cons_self] at hc
    refine (decreaseV_spec hq hxn hpos (by simp only [hx, if_true]; omega)).mono ?_
    rintro q'' ⟨ord'', pos'', hq', hfr'⟩
    refine ⟨ord'', pos'', ?_, fun i hi => by rw [hfr' i hi, hfr i hi]⟩
    have : (fun y => if E y then f y - (pre ++ [x]).count y else f y) =
        fun y => if y = x then (if E x then f x - pre.count x else f x) - 1 else if E y then f y - pre.count y else f y := by
      funext y
      rw [List.count_append, List.count_singleton]
      by_cases hyx : y = x
      · subst hyx; simp [hx]; omega
      · simp [hyx, Ne.symm hyx]
    rw [this]; exact hq'
  · rw [if_neg hx, wp_some]
    refine ⟨ord', pos', ?_, hfr⟩
    have : (fun y => if E y then f y - (pre ++ [x]).count y else f y) = fun y => if E y then f y - pre.count y else f y := by
      funext y
      rw [List.count_append, List.count_singleton]
      by_cases hyx : x = y
      · subst hyx; simp [hx]
      · simp [hyx]
    rw [this]; exact hq

end Scc
