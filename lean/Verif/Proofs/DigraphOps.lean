/-
Product, loop deletion, difference and transpose: the array loops.
-/
import Verif.Proofs.DigraphUnion

set_option linter.unusedSimpArgs false
set_option linter.unusedVariables false

namespace Scc

/-! ### Product -/

section Product

variable {n pm : Nat} {aH aT bH bT : Buf Nat} {ra rb : Nat → List Nat}

theorem productRow_spec (write force : Bool) (ha : Csr n aH aT ra) (hb : Csr n bH bT rb) {v : Nat} (hv : v < n) (hpm : n ≤ pm)
    {acc : List Nat} {st : UnionSt} (h : RowStart write n v pm acc st)
    (hcap : write = true → acc.length + (productRows force ra rb v).length ≤ st.head.len) :
    Wp (productRow force write aH aT bH bT v st) (fun st' =>
      RowStart write n (v + 1) pm (acc ++ productRows force ra rb v) st' ∧ st'.head.len = st.head.len ∧ st'.tail = st.tail) := by
  unfold productRow
  unfold productRows at hcap ⊢
  simp only [wp_bind, Buf.wp_set]
  refine ⟨by rw [h.rm_len]; exact hv, ?_⟩
  have hs := h.scanSelf (v := v) (by omega) hv
  have rest : ∀ seen acc' st', Scan write n v pm seen acc' st' →
      (write = true → acc'.length + (firstOcc seen ((ra v).flatMap rb)).length ≤ st'.head.len) →
      Wp (rowLoop aH aT v st' fun a st => scanRow write bH bT a v st) (fun st'' =>
        Scan write n v pm (firstOcc seen ((ra v).flatMap rb) ++ seen) (acc' ++ firstOcc seen ((ra v).flatMap rb)) st'' ∧
          st''.head.len = st'.head.len ∧ st''.tail = st'.tail) := by
    intro seen acc' st' h' hc'
    rw [rowLoop_eq ha hv]
    exact scanMany_spec _ rb (ra v) (fun a hav seen acc st hs hcap => scanRow_spec hb (ha.range v hv a hav) hs hcap) h' hc'
  cases force with
  | false =>
    simp only [Bool.false_eq_true, if_false, wp_pure, List.nil_append] at hcap ⊢
    exact (rest [v] acc _ hs hcap).mono fun st' ⟨h1, h2, h3⟩ => ⟨h1.rowStart, h2, h3⟩
  | true =>
    simp only [if_true, firstOcc_append, wp_bind] at hcap ⊢
    refine (scanRow_spec hb hv hs (fun hw => ?_)).mono fun st1 ⟨h1, h2, h3⟩ => ?_
    · have := hcap hw; simp at this; show _ ≤ st.head.len; omega
    · refine (rest _ _ st1 h1 (fun hw => ?_)).mono fun st2 ⟨k1, k2, k3⟩ => ?_
      · have := hcap hw; simp at this h2 ⊢; omega
      · rw [List.append_assoc] at k1
        exact ⟨k1.rowStart, k2.trans h2, k3.trans h3⟩

theorem doProduct_count {cfg : Cfg} (force : Bool) (ha : Csr n aH aT ra) (hb : Csr n bH bT rb) (hpm : n ≤ cfg.pointMax)
    {rm oT oH : Buf Nat} (hrm : rm.len = n) :
    Wp (doProduct cfg n aH aT bH bT rm force false oT oH) (fun st' => st'.cnt = off (productRows force ra rb) n) := by
  unfold doProduct
  rw [wp_bind]
  refine (initMarkers_spec hrm).mono fun rm' ⟨hl, hg⟩ => ?_
  simp only [Bool.not_false, if_true]
  refine wp_forLt (fun v st => ∃ acc, RowStart false n v cfg.pointMax acc st ∧ acc.length = off (productRows force ra rb) v)
    (Nat.zero_le _) ⟨[], ⟨hl, fun x hx => ⟨_, hg x hx, Or.inr rfl⟩, rfl, by simp⟩, rfl⟩ ?_ ?_
  · rintro v st - hv ⟨acc, hst, hacc⟩
    refine (productRow_spec false force ha hb hv hpm hst (by simp)).mono fun st' ⟨h1, _, _⟩ => ⟨_, h1, ?_⟩
    simp [off, hacc]
  · rintro st ⟨acc, hst, hacc⟩
    rw [hst.cnt, hacc]

theorem productRows_range {force : Bool} (ha : Csr n aH aT ra) (hb : Csr n bH bT rb) :
    ∀ v, v < n → ∀ x ∈ productRows force ra rb v, x < n := by
  intro v hv x hx
  unfold productRows at hx
  rw [mem_firstOcc, List.mem_append] at hx
  rcases hx.1 with h | h
  · split at h
    · exact hb.range v hv x h
    · simp at h
  · rw [List.mem_flatMap] at h
    obtain ⟨y, hy, hx⟩ := h
    exact hb.range y (ha.range v hv y hy) x hx

theorem doProduct_write {cfg : Cfg} (force : Bool) (ha : Csr n aH aT ra) (hb : Csr n bH bT rb) (hpm : n ≤ cfg.pointMax)
    {rm oT oH : Buf Nat} (hrm : rm.len = n) (hT : oT.len = n + 1) (hH : off (productRows force ra rb) n ≤ oH.len) :
    Wp (doProduct cfg n aH aT bH bT rm force true oT oH) (fun st' =>
      st'.cnt = off (productRows force ra rb) n ∧ Csr n st'.head st'.tail (productRows force ra rb) ∧
      st'.head.len = oH.len ∧ st'.tail.len = oT.len) := by
  unfold doProduct
  rw [wp_bind]
  refine (initMarkers_spec hrm).mono fun rm' ⟨hl, hg⟩ => ?_
  set R := productRows force ra rb with hR
  simp only [Bool.not_true, Bool.false_eq_true, if_false, wp_bind, Buf.wp_set]
  refine ⟨by omega, ?_⟩
  refine wp_forLt (fun v st => RowStart true n v cfg.pointMax (allArcs R v) st ∧
    (∀ u, u ≤ v → st.tail.get u = some (off R u)) ∧ st.head.len = oH.len ∧ st.tail.len = oT.len) (Nat.zero_le _) ?_ ?_ ?_
  · refine ⟨⟨hl, fun x hx => ⟨_, hg x hx, Or.inr rfl⟩, rfl, fun _ => Pre.nil _⟩, ?_, rfl, by simp⟩
    intro u hu
    obtain rfl : u = 0 := by omega
    simp [Buf.get_upd_self _ _ (show 0 < oT.len by omega), off]
  · rintro v st - hv ⟨h1, h2, h3, h4⟩
    rw [wp_bind]
    have hcap : (allArcs R v).length + (R v).length ≤ oH.len := by
      rw [length_allArcs]
      have : off R (v + 1) ≤ off R n := off_mono (by omega)
      simp only [off] at this; omega
    refine (productRow_spec true force ha hb hv hpm h1 (fun _ => by rw [h3]; exact hcap)).mono fun st' ⟨k1, k2, k3⟩ => ?_
    simp only [wp_bind, Buf.wp_set, wp_pure]
    refine ⟨by rw [k3]; omega, ⟨k1.rm_len, k1.marks, ?_, ?_⟩, ?_, by simpa using k2.trans h3, by simp [k3, h4]⟩
    · rw [allArcs_succ]; exact k1.cnt
    · rw [allArcs_succ]; exact k1.out
    · intro u hu
      by_cases huv : u = v + 1
      · subst huv
        rw [Buf.get_upd_self _ _ (by rw [k3]; omega), k1.cnt]
        simp [off, length_allArcs, hR]
      · rw [Buf.get_upd_ne _ _ huv, k3]; exact h2 u (by omega)
  · rintro st ⟨h1, h2, h3, h4⟩
    exact ⟨by rw [h1.cnt, length_allArcs], csr_of_pre (h1.out rfl) h2 (productRows_range ha hb), h3, h4⟩

theorem productGreedy_spec (force : Bool) (ha : Csr n aH aT ra) (hb : Csr n bH bT rb) :
    Wp (productGreedy n aH aT bT force) (fun c => off (productRows force ra rb) n ≤ c) := by
  unfold productGreedy
  rw [wp_bind, wp_eq ha.total, wp_bind, allArcsLoop_eq ha]
  have step : Wp ((allArcs ra n).foldlM (fun c a => do
      let hi ← bT.get (a + 1)
      let lo ← bT.get a
      if hi < lo then none else pure (c + (hi - lo))) 0) (fun c => c = ((allArcs ra n).flatMap rb).length) := by
    refine (wp_foldlM (fun pre c => c = (pre.flatMap rb).length) (allArcs ra n) 0 rfl ?_)
    rintro pre a post c hsplit rfl
    have ham : a ∈ allArcs ra n := by simp [hsplit]
    obtain ⟨v, hv, hav⟩ := mem_allArcs.1 ham
    have han := ha.range v hv a hav
    rw [wp_bind, wp_eq (hb.tail_get (a + 1) (by omega)), wp_bind, wp_eq (hb.tail_get a (by omega))]
    rw [if_neg (by simp [off]), wp_pure]
    simp [off]
  refine step.mono fun c hc => ?_
  have hlen : ∀ m, off (productRows force ra rb) m ≤ ((allArcs ra m).flatMap rb).length + (if force then off rb m else 0) := by
    intro m
    induction m with
    | zero => simp [off]
    | succ m ih =>
      rw [allArcs_succ, List.flatMap_append, List.length_append]
      simp only [off]
      have : (productRows force ra rb m).length ≤ ((if force then rb m else []) ++ (ra m).flatMap rb).length := firstOcc_length_le
      rw [List.length_append] at this
      cases force <;> simp at this ih ⊢ <;> omega
  have := hlen n
  cases force with
  | false => simp only [Bool.false_eq_true, if_false, wp_pure] at this ⊢; omega
  | true =>
    simp only [if_true, wp_bind] at this ⊢
    rw [wp_eq hb.total, wp_pure]; omega

end Product

/-! ### In-place compaction -/

theorem inplace_filter (p : Nat → Bool) (test : Nat → Option Bool) (l : List Nat) (i : Nat) (acc : List Nat) (head : Buf Nat)
    (ht : ∀ a ∈ l, test a = some (p a))
    (hpre : Pre head acc) (hrest : ∀ j a, l[j]? = some a → head.get (i + j) = some a) (hle : acc.length ≤ i) :
    Wp ((List.range' i l.length).foldlM (fun (s : Buf Nat × Nat) k => do
        let a ← s.1.get k
        if ← test a then do
          let head ← s.1.set s.2 a
          pure (head, s.2 + 1)
        else pure s) (head, acc.length))
      (fun r => r.2 = acc.length + (l.filter p).length ∧ Pre r.1 (acc ++ l.filter p) ∧ r.1.len = head.len ∧
        ∀ j, i + l.length ≤ j → r.1.get j = head.get j) := by
  induction l generalizing i acc head with
  | nil => simpa using hpre
  | cons a l ih =>
    have h0 : head.get i = some a := by simpa using hrest 0 a (by simp)
    have hilt := Buf.lt_of_get h0
    simp only [List.length_cons, List.range'_succ, List.foldlM_cons]
    rw [wp_bind, wp_bind, wp_eq h0, wp_bind, wp_eq (ht a (by simp))]
    have hrest' : ∀ j b, l[j]? = some b → head.get (i + 1 + j) = some b := fun j b hb => by
      have := hrest (j + 1) b (by simpa using hb)
      rwa [show i + 1 + j = i + (j + 1) by omega]
    by_cases hp : p a = true
    · simp only [hp, if_true, wp_bind, Buf.wp_set, wp_pure, List.filter_cons]
      refine ⟨by omega, ?_⟩
      have := ih (i := i + 1) (acc := acc ++ [a]) (head := head.upd acc.length a) (fun b hb => ht b (by simp [hb]))
        (hpre.snoc (by omega)) (fun j b hb => by rw [Buf.get_upd_ne _ _ (by omega)]; exact hrest' j b hb) (by simp; omega)
      rw [List.length_append, List.length_singleton] at this
      refine this.mono fun r ⟨h1, h2, h3, h4⟩ => ⟨?_, ?_, by simpa using h3, fun j hj => ?_⟩
      · rw [h1]; simp; omega
      · simpa using h2
      · rw [h4 j (by omega), Buf.get_upd_ne _ _ (by omega)]
    · simp only [hp, Bool.false_eq_true, if_false, wp_pure, List.filter_cons]
      have := ih (i := i + 1) (acc := acc) (head := head) (fun b hb => ht b (by simp [hb])) hpre hrest' (by omega)
      refine this.mono fun r ⟨h1, h2, h3, h4⟩ => ⟨h1, h2, h3, fun j hj => h4 j (by omega)⟩

theorem inplace_filter_take (p : Nat → Bool) (test : Nat → Option Bool) (mx : Nat) (l : List Nat) (i rc : Nat) (acc : List Nat) (head : Buf Nat)
    (ht : ∀ a ∈ l, test a = some (p a))
    (hpre : Pre head acc) (hrest : ∀ j a, l[j]? = some a → head.get (i + j) = some a) (hle : acc.length ≤ i) :
    Wp ((List.range' i l.length).foldlM (fun (s : Buf Nat × Nat × Nat) k => do
        if s.2.1 < mx then do
          let a ← s.1.get k
          if ← test a then do
            let head ← s.1.set s.2.2 a
            pure (head, s.2.1 + 1, s.2.2 + 1)
          else pure s
        else pure s) (head, rc, acc.length))
      (fun r => r.2.2 = acc.length + ((l.filter p).take (mx - rc)).length ∧ Pre r.1 (acc ++ (l.filter p).take (mx - rc)) ∧ r.1.len = head.len ∧
        ∀ j, i + l.length ≤ j → r.1.get j = head.get j) := by
  induction l generalizing i acc head rc with
  | nil => simpa using hpre
  | cons a l ih =>
    have h0 : head.get i = some a := by simpa using hrest 0 a (by simp)
    have hilt := Buf.lt_of_get h0
    simp only [List.length_cons, List.range'_succ, List.foldlM_cons]
    have hrest' : ∀ j b, l[j]? = some b → head.get (i + 1 + j) = some b := fun j b hb => by
      have := hrest (j + 1) b (by simpa using hb)
      rwa [show i + 1 + j = i + (j + 1) by omega]
    by_cases hrc : rc < mx
    · simp only [hrc, if_true]
      rw [wp_bind, wp_bind, wp_eq h0, wp_bind, wp_eq (ht a (by simp))]
      by_cases hp : p a = true
      · simp only [hp, if_true, wp_bind, Buf.wp_set, wp_pure, List.filter_cons]
        refine ⟨by omega, ?_⟩
        have := ih (i := i + 1) (rc := rc + 1) (acc := acc ++ [a]) (head := head.upd acc.length a) (fun b hb => ht b (by simp [hb]))
          (hpre.snoc (by omega)) (fun j b hb => by rw [Buf.get_upd_ne _ _ (by omega)]; exact hrest' j b hb) (by simp; omega)
        rw [List.length_append, List.length_singleton] at this
        have htake : (a :: l.filter p).take (mx - rc) = a :: (l.filter p).take (mx - (rc + 1)) := by
          rw [show mx - rc = (mx - (rc + 1)) + 1 by omega, List.take_succ_cons]
        rw [htake]
        refine this.mono fun r ⟨h1, h2, h3, h4⟩ => ⟨?_, ?_, by simpa using h3, fun j hj => ?_⟩
        · rw [h1, List.length_cons]; omega
        · rw [List.append_assoc] at h2; exact h2
        · rw [h4 j (by omega), Buf.get_upd_ne _ _ (by omega)]
      · simp only [hp, Bool.false_eq_true, if_false, wp_pure, List.filter_cons]
        have := ih (i := i + 1) (rc := rc) (acc := acc) (head := head) (fun b hb => ht b (by simp [hb])) hpre hrest' (by omega)
        refine this.mono fun r ⟨h1, h2, h3, h4⟩ => ⟨h1, h2, h3, fun j hj => h4 j (by omega)⟩
    · simp only [hrc, if_false]
      rw [wp_bind, wp_pure]
      have := ih (i := i + 1) (rc := rc) (acc := acc) (head := head) (fun b hb => ht b (by simp [hb])) hpre hrest' (by omega)
      rw [show mx - rc = 0 by omega] at this ⊢
      simp only [List.take_zero] at this ⊢
      refine this.mono fun r ⟨h1, h2, h3, h4⟩ => ⟨h1, h2, h3, fun j hj => h4 j (by omega)⟩

/-- Invariant of in-place compaction before row `v`: rows below `v` are final, rows from `v` on untouched. -/
structure Compact (n : Nat) (head tail : Buf Nat) (rows R : Nat → List Nat) (v : Nat) (h t : Buf Nat) (w : Nat) : Prop where
  w_eq : w = off R v
  pre : Pre h (allArcs R v)
  rest : ∀ j, off rows v ≤ j → h.get j = head.get j
  h_len : h.len = head.len
  t_len : t.len = tail.len
  t_done : ∀ u, u < v → t.get u = some (off R u)
  t_rest : ∀ u, v ≤ u → u ≤ n → t.get u = some (off rows u)

theorem Compact.csr {n : Nat} {head tail : Buf Nat} {rows R : Nat → List Nat} {h t : Buf Nat} {w : Nat}
    (hc : Csr n head tail rows) (hi : Compact n head tail rows R n h t w) (hR : ∀ v, v < n → ∀ a ∈ R v, a ∈ rows v) :
    n < t.len ∧ Csr n h (t.upd n w) R := by
  have hlt : n < t.len := Buf.lt_of_get (hi.t_rest n le_rfl le_rfl)
  refine ⟨hlt, csr_of_pre hi.pre (fun v hv => ?_) (fun v hv a ha => hc.range v hv a (hR v hv a ha))⟩
  by_cases hvn : v = n
  · subst hvn; rw [Buf.get_upd_self _ _ hlt, hi.w_eq]
  · rw [Buf.get_upd_ne _ _ hvn]; exact hi.t_done v (by omega)

theorem deleteLoopsK_spec {n : Nat} {head tail : Buf Nat} {rows : Nat → List Nat} (hc : Csr n head tail rows) :
    Wp (deleteLoopsK n head tail) (fun r => r.2.2 = off (noLoopRows rows) n ∧ Csr n r.1 r.2.1 (noLoopRows rows) ∧
      r.1.len = head.len ∧ r.2.1.len = tail.len) := by
  unfold deleteLoopsK
  rw [wp_bind]
  refine wp_forLt (fun v (s : Buf Nat × Buf Nat × Nat) => Compact n head tail rows (noLoopRows rows) v s.1 s.2.1 s.2.2)
    (Nat.zero_le _) ⟨rfl, Pre.nil _, fun j _ => rfl, rfl, rfl, by simp, fun u _ hu => hc.tail_get u hu⟩ ?_ ?_
  · rintro v ⟨h, t, w⟩ - hv hi
    simp only at hi ⊢
    rw [wp_bind, wp_eq (hi.t_rest v le_rfl (by omega)), wp_bind, wp_eq (hi.t_rest (v + 1) (by omega) (by omega)), wp_bind, Buf.wp_set]
    have hvt : v < t.len := Buf.lt_of_get (hi.t_rest v le_rfl (by omega))
    refine ⟨hvt, ?_⟩
    rw [wp_bind]
    unfold forNe
    rw [if_pos (by simp [off]), show off rows (v + 1) - off rows v = (rows v).length by simp [off]]
    have hle : off (noLoopRows rows) v ≤ off rows v := off_le (fun u _ => List.length_filter_le _ _)
    have := inplace_filter (fun a => decide (a ≠ v)) (fun a => some (decide (a ≠ v))) (rows v) (off rows v) (allArcs (noLoopRows rows) v) h
      (fun a _ => rfl) hi.pre (fun j a hj => by rw [hi.rest _ (by omega)]; exact hc.head_get v hv j a hj) (by rw [length_allArcs]; exact hle)
    rw [length_allArcs, ← hi.w_eq] at this
    have conv : ∀ (s : Buf Nat × Nat), Wp ((List.range' (off rows v) (rows v).length).foldlM (fun (s : Buf Nat × Nat) i => do
          let a ← s.1.get i
          if a ≠ v then do
            let head ← s.1.set s.2 a
            pure (head, s.2 + 1)
          else pure (s.1, s.2)) s) = Wp ((List.range' (off rows v) (rows v).length).foldlM (fun (s : Buf Nat × Nat) k => do
            let a ← s.1.get k
            if ← some (decide (a ≠ v)) then do
              let head ← s.1.set s.2 a
              pure (head, s.2 + 1)
            else pure s) s) := by
      intro s; congr 2; funext s i; congr 1; funext a; simp
    rw [conv]
    refine this.mono fun r ⟨h1, h2, h3, h4⟩ => ?_
    simp only [wp_pure]
    refine ⟨?_, ?_, ?_, by rw [h3, hi.h_len], by simp [hi.t_len], ?_, ?_⟩
    · rw [h1, hi.w_eq]; rfl
    · rw [allArcs_succ]; exact h2
    · intro j hj
      simp only [off] at hj
      rw [h4 j hj, hi.rest j (by omega)]
    · intro u hu
      by_cases huv : u = v
      · subst huv; rw [Buf.get_upd_self _ _ hvt, hi.w_eq]
      · rw [Buf.get_upd_ne _ _ huv]; exact hi.t_done u (by omega)
    · intro u hu1 hu2
      rw [Buf.get_upd_ne _ _ (by omega)]; exact hi.t_rest u (by omega) hu2
  · rintro ⟨h, t, w⟩ hi
    simp only at hi
    have := hi.csr hc (fun v hv a ha => List.mem_of_mem_filter ha)
    simp only [wp_bind, Buf.wp_set, wp_pure]
    exact ⟨this.1, hi.w_eq, this.2, hi.h_len, by simp [hi.t_len]⟩

theorem markRow {v : Nat} (l : List Nat) {n : Nat} {rm : Buf Nat} (hrm : rm.len = n) (hl : ∀ a ∈ l, a < n) :
    Wp (l.foldlM (fun rm a => rm.set a v) rm) (fun rm' => rm'.len = n ∧ ∀ x, x < n → rm'.get x = if x ∈ l then some v else rm.get x) := by
  refine (wp_foldlM (fun pre (r : Buf Nat) => r.len = n ∧ ∀ x, x < n → r.get x = if x ∈ pre then some v else rm.get x) l rm ⟨hrm, by simp⟩ ?_)
  rintro pre a post r hsplit ⟨h1, h2⟩
  have ha : a < n := hl a (by simp [hsplit])
  rw [Buf.wp_set]
  refine ⟨by omega, by simp [h1], fun x hx => ?_⟩
  by_cases hxa : x = a
  · subst hxa; rw [Buf.get_upd_self _ _ (by omega)]; simp
  · rw [Buf.get_upd_ne _ _ hxa, h2 x hx]; simp [hxa]

theorem differenceK_spec {cfg : Cfg} {n : Nat} {head tail sH sT rm : Buf Nat} {rows rs : Nat → List Nat} {mx : Nat}
    (hc : Csr n head tail rows) (hs : Csr n sH sT rs) (hrm : rm.len = n) (hpm : n ≤ cfg.pointMax) :
    Wp (differenceK cfg n head tail sH sT rm mx) (fun r => r.2.2 = off (differenceRows rows rs mx) n ∧ Csr n r.1 r.2.1 (differenceRows rows rs mx) ∧
      r.1.len = head.len ∧ r.2.1.len = tail.len) := by
  unfold differenceK
  rw [wp_bind]
  refine (initMarkers_spec hrm).mono fun rm0 ⟨hl0, hg0⟩ => ?_
  set R := differenceRows rows rs mx with hR
  rw [wp_bind]
  refine wp_forLt (fun v (s : Buf Nat × Buf Nat × Buf Nat × Nat) => Compact n head tail rows R v s.1 s.2.1 s.2.2.2 ∧
      s.2.2.1.len = n ∧ ∀ x, x < n → ∃ m, s.2.2.1.get x = some m ∧ (m < v ∨ m = cfg.pointMax))
    (Nat.zero_le _) ⟨⟨rfl, Pre.nil _, fun j _ => rfl, rfl, rfl, by simp, fun u _ hu => hc.tail_get u hu⟩, hl0, fun x hx => ⟨_, hg0 x hx, Or.inr rfl⟩⟩ ?_ ?_
  · rintro v ⟨h, t, rm1, w⟩ - hv ⟨hi, hrl, hrg⟩
    simp only at hi hrl hrg ⊢
    rw [wp_bind, rowLoop_eq hs hv]
    refine (markRow (v := v) (rs v) hrl (hs.range v hv)).mono fun rm2 ⟨hl2, hg2⟩ => ?_
    have hmark : ∀ x, x < n → ∃ m, rm2.get x = some m ∧ (m = v ↔ x ∈ rs v) ∧ (m ≤ v ∨ m = cfg.pointMax) := by
      intro x hx
      rw [hg2 x hx]
      by_cases hxs : x ∈ rs v
      · exact ⟨v, by simp [hxs], by simp [hxs], Or.inl le_rfl⟩
      · obtain ⟨m, h1, h2⟩ := hrg x hx
        exact ⟨m, by simp [hxs, h1], by simp [hxs]; omega, by omega⟩
    rw [wp_bind, wp_eq (hi.t_rest v le_rfl (by omega)), wp_bind, wp_eq (hi.t_rest (v + 1) (by omega) (by omega)), wp_bind, Buf.wp_set]
    have hvt : v < t.len := Buf.lt_of_get (hi.t_rest v le_rfl (by omega))
    refine ⟨hvt, ?_⟩
    rw [if_neg (by simp [off]), wp_bind]
    unfold forLt
    rw [show off rows (v + 1) - off rows v = (rows v).length by simp [off]]
    have hle : off R v ≤ off rows v := off_le (fun u _ => (List.length_take_le' _ _).trans (List.length_filter_le _ _))
    have := inplace_filter_take (fun a => decide (a ∉ rs v)) (fun a => (rm2.get a).map (fun m => decide (m ≠ v))) mx (rows v) (off rows v) 0
      (allArcs R v) h
      (fun a ha => by
        obtain ⟨m, h1, h2, -⟩ := hmark a (hc.range v hv a ha)
        rw [h1]; simp [h2]) hi.pre (fun j a hj => by rw [hi.rest _ (by omega)]; exact hc.head_get v hv j a hj) (by rw [length_allArcs]; exact hle)
    rw [length_allArcs, ← hi.w_eq] at this
    have conv : ∀ (s : Buf Nat × Nat × Nat), Wp ((List.range' (off rows v) (rows v).length).foldlM (fun (s : Buf Nat × Nat × Nat) i => do
          if s.2.1 < mx then do
            let a ← s.1.get i
            let m ← rm2.get a
            if m ≠ v then do
              let head ← s.1.set s.2.2 a
              pure (head, s.2.1 + 1, s.2.2 + 1)
            else pure (s.1, s.2.1, s.2.2)
          else pure (s.1, s.2.1, s.2.2)) s) = Wp ((List.range' (off rows v) (rows v).length).foldlM (fun (s : Buf Nat × Nat × Nat) k => do
            if s.2.1 < mx then do
              let a ← s.1.get k
              if ← (rm2.get a).map (fun m => decide (m ≠ v)) then do
                let head ← s.1.set s.2.2 a
                pure (head, s.2.1 + 1, s.2.2 + 1)
              else pure s
            else pure s) s) := by
      intro s; congr 2; funext s i
      split
      · congr 1; funext a
        cases rm2.get a <;> simp
      · rfl
    rw [conv]
    refine this.mono fun r ⟨h1, h2, h3, h4⟩ => ?_
    simp only [wp_pure]
    refine ⟨⟨?_, ?_, ?_, by rw [h3, hi.h_len], by simp [hi.t_len], ?_, ?_⟩, hl2, fun x hx => ?_⟩
    · rw [h1, hi.w_eq]; rfl
    · rw [allArcs_succ]; exact h2
    · intro j hj
      simp only [off] at hj
      rw [h4 j hj, hi.rest j (by omega)]
    · intro u hu
      by_cases huv : u = v
      · subst huv; rw [Buf.get_upd_self _ _ hvt, hi.w_eq]
      · rw [Buf.get_upd_ne _ _ huv]; exact hi.t_done u (by omega)
    · intro u hu1 hu2
      rw [Buf.get_upd_ne _ _ (by omega)]; exact hi.t_rest u (by omega) hu2
    · obtain ⟨m, h1, -, h3⟩ := hmark x hx
      exact ⟨m, h1, by omega⟩
  · rintro ⟨h, t, rm1, w⟩ ⟨hi, -, -⟩
    simp only at hi
    have := hi.csr hc (fun v hv a ha => List.mem_of_mem_filter (List.mem_of_mem_take ha))
    simp only [wp_bind, Buf.wp_set, wp_pure]
    exact ⟨this.1, hi.w_eq, this.2, hi.h_len, by simp [hi.t_len]⟩

end Scc
