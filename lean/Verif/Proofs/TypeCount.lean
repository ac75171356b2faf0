/-
Counting and grouping points by type (`iscc_type_count`).
-/
import Verif.Proofs.NngSize

set_option linter.unusedSimpArgs false
set_option linter.unusedVariables false

namespace Scc

theorem mem_typeGroup {n : Nat} {lab : Nat → Nat} {t v : Nat} : v ∈ typeGroup n lab t ↔ v < n ∧ lab v = t := by simp [typeGroup]

theorem nodup_typeGroup {n : Nat} {lab : Nat → Nat} {t : Nat} : (typeGroup n lab t).Nodup := List.nodup_reverse.2 (List.nodup_range.filter _)

theorem typeGroup_succ (n : Nat) (lab : Nat → Nat) (t : Nat) : typeGroup (n + 1) lab t = if lab n = t then n :: typeGroup n lab t else typeGroup n lab t := by
  unfold typeGroup
  rw [List.range_succ, List.filter_append]
  by_cases h : lab n = t
  · simp [h]
  · simp [h]

theorem length_typeGroup_mono {m n : Nat} (h : m ≤ n) (lab : Nat → Nat) (t : Nat) : (typeGroup m lab t).length ≤ (typeGroup n lab t).length := by
  unfold typeGroup
  rw [List.length_reverse, List.length_reverse]
  exact (List.Sublist.filter _ (List.range_sublist.2 h)).length_le

theorem off_typeGroup_succ {n : Nat} {lab : Nat → Nat} {T : Nat} : off (typeGroup (n + 1) lab) T = off (typeGroup n lab) T + if lab n < T then 1 else 0 := by
  induction T with
  | zero => simp [off]
  | succ T ih =>
    show off _ T + _ = off _ T + _ + _
    rw [ih, typeGroup_succ]
    by_cases h1 : lab n = T
    · rw [if_pos h1, if_neg (by omega), if_pos (by omega)]; simp; omega
    · rw [if_neg h1]
      by_cases h2 : lab n < T
      · rw [if_pos h2, if_pos (by omega)]; omega
      · rw [if_neg h2, if_neg (by omega)]; omega

theorem off_typeGroup_le {n : Nat} {lab : Nat → Nat} {T : Nat} : off (typeGroup n lab) T ≤ n := by
  induction n with
  | zero => rw [off_nil]; intro v _; simp [typeGroup]
  | succ n ih => rw [off_typeGroup_succ]; split <;> omega

theorem sumTo_succ (c : Nat → Nat) (T : Nat) : sumTo c (T + 1) = sumTo c T + c T := by simp [sumTo, List.range_succ]

theorem sumTo_mono {c : Nat → Nat} {S T : Nat} (h : S ≤ T) : sumTo c S ≤ sumTo c T := by
  induction h with
  | refl => exact le_rfl
  | step _ ih => rw [sumTo_succ]; omega

/-- The type labels and type constraints given by the user. -/
structure TypeInput (n T : Nat) (tcs labels : Buf Nat) (lab c : Nat → Nat) : Prop where
  labels : ∀ v, v < n → labels.get v = some (lab v)
  range : ∀ v, v < n → lab v < T
  tcs : ∀ t, t < T → tcs.get t = some (c t)

theorem countTypes_spec {n T : Nat} {tcs labels : Buf Nat} {lab c : Nat → Nat} (h : TypeInput n T tcs labels lab c) :
    Wp (countTypes n labels (Buf.fill T 0)) fun s => s.len = T ∧ ∀ t, t < T → s.get t = some (typeGroup n lab t).length := by
  unfold countTypes
  refine wp_forLt (fun i s => s.len = T ∧ ∀ t, t < T → s.get t = some (typeGroup i lab t).length) (Nat.zero_le _) ⟨by simp, fun t ht => ?_⟩ ?_ (fun s hs => hs)
  · simp [Buf.get_fill, ht, typeGroup]
  · intro i s _ hi ⟨a1, a2⟩
    have hr := h.range i hi
    rw [wp_bind, wp_eq (h.labels i hi), wp_bind, wp_eq (a2 _ hr), Buf.wp_set]
    refine ⟨by omega, a1, fun t ht => ?_⟩
    rw [typeGroup_succ]
    by_cases htl : t = lab i
    · subst htl; rw [Buf.get_upd_self _ _ (by omega)]; simp
    · rw [Buf.get_upd_ne _ _ htl, a2 t ht, if_neg (fun hc => htl hc.symm)]

theorem sumTypes_spec {n T : Nat} {tcs labels sizes : Buf Nat} {lab c : Nat → Nat} (h : TypeInput n T tcs labels lab c) (hsum : sumTo c T < 2 ^ 32)
    (hs : ∀ t, t < T → sizes.get t = some (typeGroup n lab t).length) :
    Wp (sumTypes T tcs sizes) fun r => match r with
      | none => ∃ t < T, (typeGroup n lab t).length < c t
      | some s => s = sumTo c T ∧ ∀ t, t < T → c t ≤ (typeGroup n lab t).length := by
  unfold sumTypes
  rw [wp_bind]
  refine wp_forLtB (fun i s => s = sumTo c i ∧ ∀ t, t < i → c t ≤ (typeGroup n lab t).length) (fun _ => ∃ t < T, (typeGroup n lab t).length < c t) (Nat.zero_le _)
    ⟨by simp [sumTo], fun t ht => by omega⟩ ?_ ?_ ?_
  · intro i s _ hi ⟨a1, a2⟩
    rw [wp_bind, wp_eq (hs i hi), wp_bind, wp_eq (h.tcs i hi)]
    by_cases hlt : (typeGroup n lab i).length < c i
    · rw [if_pos hlt, wp_pure]; exact ⟨i, hi, hlt⟩
    · rw [if_neg hlt, wp_pure]
      refine ⟨?_, fun t ht => ?_⟩
      · rw [sumTo_succ, a1, u32, Nat.mod_eq_of_lt]
        have := sumTo_mono (c := c) (show i + 1 ≤ T by omega)
        rw [sumTo_succ] at this; omega
      · rcases Nat.lt_or_eq_of_le (Nat.lt_succ_iff.1 ht) with h | rfl
        · exact a2 t h
        · omega
  · intro s hs; dsimp only; rw [wp_pure]; exact hs
  · intro _ hr; dsimp only; rw [wp_pure]; exact hr

theorem groupEnds_spec {n T : Nat} {lab : Nat → Nat} {sizes groups : Buf Nat} (hT : 0 < T)
    (hs : ∀ t, t < T → sizes.get t = some (typeGroup n lab t).length) (hg : groups.len = T) :
    Wp (groupEnds T sizes groups) fun g => g.len = T ∧ ∀ t, t < T → g.get t = some (off (typeGroup n lab) (t + 1)) := by
  unfold groupEnds
  rw [wp_bind, wp_eq (hs 0 hT), wp_bind, Buf.wp_set]
  refine ⟨by omega, ?_⟩
  refine wp_forLt (fun i g => g.len = T ∧ ∀ t, t < i → g.get t = some (off (typeGroup n lab) (t + 1))) hT ⟨hg, fun t ht => ?_⟩ ?_ (fun s hs => hs)
  · have : t = 0 := by omega
    subst this
    rw [Buf.get_upd_self _ _ (by omega)]; simp [off]
  · intro i g h1 hi ⟨a1, a2⟩
    rw [wp_bind, wp_eq (a2 (i - 1) (by omega)), wp_bind, wp_eq (hs i hi), Buf.wp_set]
    refine ⟨by omega, a1, fun t ht => ?_⟩
    rcases Nat.lt_or_eq_of_le (Nat.lt_succ_iff.1 ht) with h | rfl
    · rw [Buf.get_upd_ne _ _ (by omega)]; exact a2 t h
    · rw [Buf.get_upd_self _ _ (by omega), show t - 1 + 1 = t by omega]; rfl

theorem get_drop {α : Type} {b : Buf α} {o i : Nat} : (b.drop o).get i = b.get (o + i) := by
  unfold Buf.drop Buf.get
  by_cases h : o + i < b.len
  · rw [if_pos (show i < b.len - o by omega), if_pos h]
  · rw [if_neg (show ¬ i < b.len - o by omega), if_neg h]

theorem fillGroups_spec {n T : Nat} {tcs labels store groups : Buf Nat} {lab c : Nat → Nat} (h : TypeInput n T tcs labels lab c) (hst : store.len = n)
    (hgl : groups.len = T) (hg : ∀ t, t < T → groups.get t = some (off (typeGroup n lab) (t + 1))) :
    Wp (fillGroups n labels store groups) fun r => (∀ t, t < T → r.2.get t = some (off (typeGroup n lab) t)) ∧
      ∀ t, t < T → Pre (r.1.drop (off (typeGroup n lab) t)) (typeGroup n lab t) := by
  unfold fillGroups
  refine wp_forLt (fun i r => r.1.len = n ∧ r.2.len = T ∧
      (∀ t, t < T → r.2.get t = some (off (typeGroup n lab) (t + 1) - (typeGroup i lab t).length)) ∧
      ∀ t, t < T → Pre (r.1.drop (off (typeGroup n lab) (t + 1) - (typeGroup i lab t).length)) (typeGroup i lab t)) (Nat.zero_le _)
    ⟨hst, hgl, fun t ht => by rw [hg t ht]; simp [typeGroup], fun t ht => by simp [typeGroup, Pre.nil]⟩ ?_ ?_
  · rintro i ⟨st, gr⟩ - hi ⟨a1, a2, a3, a4⟩
    dsimp only at a1 a2 a3 a4 ⊢
    have hr := h.range i hi
    have hlen : (typeGroup i lab (lab i)).length < (typeGroup n lab (lab i)).length := by
      have := length_typeGroup_mono (show i + 1 ≤ n by omega) lab (lab i)
      rw [typeGroup_succ, if_pos rfl, List.length_cons] at this
      exact this
    have hoff : off (typeGroup n lab) (lab i + 1) = off (typeGroup n lab) (lab i) + (typeGroup n lab (lab i)).length := rfl
    have hle : off (typeGroup n lab) (lab i + 1) ≤ n := off_typeGroup_le
    rw [wp_bind, wp_eq (h.labels i hi), wp_bind, wp_eq (a3 _ hr), if_neg (by omega), wp_bind, Buf.wp_set]
    refine ⟨by omega, ?_⟩
    rw [wp_bind, Buf.wp_set]
    refine ⟨by omega, ?_⟩
    rw [wp_pure]
    refine ⟨a1, a2, fun t ht => ?_, fun t ht => ?_⟩
    · rw [typeGroup_succ]
      by_cases htl : lab i = t
      · subst htl; rw [Buf.get_upd_self _ _ (by omega), if_pos rfl, List.length_cons]; rfl
      · rw [Buf.get_upd_ne _ _ (fun hc => htl hc.symm), a3 t ht, if_neg htl]
    · rw [typeGroup_succ]
      by_cases htl : lab i = t
      · subst htl
        rw [if_pos rfl, List.length_cons]
        intro j a hj
        rw [get_drop]
        cases j with
        | zero =>
          simp at hj
          rw [show off (typeGroup n lab) (lab i + 1) - ((typeGroup i lab (lab i)).length + 1) + 0 = off (typeGroup n lab) (lab i + 1) - (typeGroup i lab (lab i)).length - 1 by omega,
            Buf.get_upd_self _ _ (by omega), hj]
        | succ j =>
          simp at hj
          rw [Buf.get_upd_ne _ _ (by omega)]
          have := a4 _ hr j a hj
          rw [get_drop] at this
          rw [← this]; congr 1; omega
      · rw [if_neg htl]
        intro j a hj
        rw [get_drop, Buf.get_upd_ne]
        · have := a4 t ht j a hj
          rwa [get_drop] at this
        · -- the groups of different types are apart
          have hj' : j < (typeGroup i lab t).length := (List.getElem?_eq_some_iff.1 hj).1
          have hle2 := length_typeGroup_mono (show i ≤ n by omega) lab t
          have hoff2 : off (typeGroup n lab) (t + 1) = off (typeGroup n lab) t + (typeGroup n lab t).length := rfl
          rcases Nat.lt_or_gt_of_ne htl with hlt | hgt
          · have := off_mono (rows := typeGroup n lab) (show lab i + 1 ≤ t by omega)
            omega
          · have := off_mono (rows := typeGroup n lab) (show t + 1 ≤ lab i by omega)
            omega
  · rintro ⟨st, gr⟩ ⟨a1, a2, a3, a4⟩
    have ho : ∀ t, off (typeGroup n lab) (t + 1) - (typeGroup n lab t).length = off (typeGroup n lab) t := by
      intro t
      show off (typeGroup n lab) t + (typeGroup n lab t).length - _ = _
      omega
    exact ⟨fun t ht => by rw [a3 t ht, ho], fun t ht => by have := a4 t ht; rwa [ho] at this⟩

/-- What a successful `iscc_type_count` delivers. -/
structure TypeCountOk (n T : Nat) (lab c : Nat → Nat) (tc : TypeCount) : Prop where
  sum : tc.sum = sumTo c T
  sizes : ∀ t, t < T → tc.sizes.buf.get t = some (typeGroup n lab t).length
  groups : ∀ t, t < T → tc.groups.buf.get t = some (off (typeGroup n lab) t)
  store : ∀ t, t < T → Pre (tc.store.buf.drop (off (typeGroup n lab) t)) (typeGroup n lab t)
  enough : ∀ t, t < T → c t ≤ (typeGroup n lab t).length

theorem typeCount_spec {n S T : Nat} {tcs labels : Buf Nat} {lab c : Nat → Nat} {w : World} (h : TypeInput n T tcs labels lab c) (hsum : sumTo c T < 2 ^ 32) (hT : 0 < T) :
    WpM (typeCount n S T tcs labels) w fun r w' => match r with
      | .error e => FailPost w (fun e => e = .noMemory ∧ ¬ w.NoFail ∨ e = .noSolution ∧ (∃ t < T, (typeGroup n lab t).length < c t) ∨
          e = .invalidInput ∧ S < sumTo c T) e w'
      | .ok tc => w'.fails = w.fails ∧ w'.live = {tc.sizes.id} + {tc.store.id} + {tc.groups.id} + w.live ∧ w'.err = w.err ∧ sumTo c T ≤ S ∧
          TypeCountOk n T lab c tc := by
  unfold typeCount
  rw [wpM_bind]
  have step1 : WpM (alloc (Buf.fill T 0 : Buf Nat)) w fun p w1 => w1.fails = w.fails ∧ w1.live = ptrOwn p + w.live ∧ w1.err = w.err ∧
      (p = none → ¬ w.NoFail) ∧ ∀ b, p = some b → b.buf = Buf.fill T 0 :=
    wpM_alloc (fun w' hf k1 k2 k3 => ⟨k1, by simpa using k2, k3, fun _ => hf, by simp⟩)
      (fun i w' k1 k2 k3 => ⟨k1, k2, k3, by simp, by rintro b h; cases h; rfl⟩)
  refine step1.mono ?_
  rintro sz w1 ⟨a1, a2, a3, a4, a5⟩
  rw [wpM_bind]
  have step2 : WpM (alloc (Buf.raw n : Buf Nat)) w1 fun p w2 => w2.fails = w.fails ∧ w2.live = ptrOwn p + (ptrOwn sz + w.live) ∧ w2.err = w.err ∧
      (p = none → ¬ w.NoFail) ∧ ∀ b, p = some b → b.buf = Buf.raw n :=
    wpM_alloc (fun w' hf k1 k2 k3 => ⟨k1.trans a1, by rw [k2, a2]; simp, k3.trans a3, fun _ => by rwa [noFail_congr a1] at hf, by simp⟩)
      (fun i w' k1 k2 k3 => ⟨k1.trans a1, by rw [k2, a2]; rfl, k3.trans a3, by simp, by rintro b h; cases h; rfl⟩)
  refine step2.mono ?_
  rintro st w2 ⟨b1, b2, b3, b4, b5⟩
  rw [wpM_bind]
  have step3 : WpM (alloc (Buf.raw T : Buf Nat)) w2 fun p w3 => w3.fails = w.fails ∧ w3.live = ptrOwn p + (ptrOwn st + (ptrOwn sz + w.live)) ∧ w3.err = w.err ∧
      (p = none → ¬ w.NoFail) ∧ ∀ b, p = some b → b.buf = Buf.raw T :=
    wpM_alloc (fun w' hf k1 k2 k3 => ⟨k1.trans b1, by rw [k2, b2]; simp, k3.trans b3, fun _ => by rwa [noFail_congr b1] at hf, by simp⟩)
      (fun i w' k1 k2 k3 => ⟨k1.trans b1, by rw [k2, b2]; rfl, k3.trans b3, by simp, by rintro b h; cases h; rfl⟩)
  refine step3.mono ?_
  rintro gr w3 ⟨c1, c2, c3, c4, c5⟩
  have failAll : (sz = none ∨ st = none ∨ gr = none) → WpM (do
      freePtr sz
      freePtr st
      freePtr gr
      fail .noMemory "src/nng_core.c" 874 : M (Except ErrorCode TypeCount)) w3 fun r w' => match r with
      | .error e => FailPost w (fun e => e = .noMemory ∧ ¬ w.NoFail ∨ e = .noSolution ∧ (∃ t < T, (typeGroup n lab t).length < c t) ∨
          e = .invalidInput ∧ S < sumTo c T) e w'
      | .ok tc => w'.fails = w.fails ∧ w'.live = {tc.sizes.id} + {tc.store.id} + {tc.groups.id} + w.live ∧ w'.err = w.err ∧ sumTo c T ≤ S ∧
          TypeCountOk n T lab c tc := by
    intro hnone
    rw [wpM_bind]
    refine wpM_freePtr (ptrOwn gr + ptrOwn st + w.live) (by rw [c2]; abel) fun w4 k1 k2 k3 => ?_
    rw [wpM_bind]
    refine wpM_freePtr (ptrOwn gr + w.live) (by rw [k2]; abel) fun w5 l1 l2 l3 => ?_
    rw [wpM_bind]
    refine wpM_freePtr w.live l2 fun w6 m1 m2 m3 => ?_
    refine wpM_fail fun w7 n1 n2 n3 => ⟨by rw [n1, m1, l1, k1, c1], by rw [n2, m2], by rw [n3], Or.inl ⟨rfl, ?_⟩⟩
    rcases hnone with h | h | h
    · exact a4 h
    · exact b4 h
    · exact c4 h
  cases sz with
  | none => exact failAll (Or.inl rfl)
  | some sz =>
    cases st with
    | none => exact failAll (Or.inr (Or.inl rfl))
    | some st =>
      cases gr with
      | none => exact failAll (Or.inr (Or.inr rfl))
      | some gr =>
        clear failAll
        have e1 := a5 _ rfl
        have e2 := b5 _ rfl
        have e3 := c5 _ rfl
        simp only [ptrOwn_some] at c2
        dsimp only
        have m1 : sz.id ∈ w3.live := by rw [c2]; simp
        have m2 : st.id ∈ w3.live := by rw [c2]; simp
        have m3 : gr.id ∈ w3.live := by rw [c2]; simp
        have fin : ∀ (Q : Except ErrorCode TypeCount → World → Prop) (ec : ErrorCode) (line : Nat) (msg : Option String),
            (∀ w', w'.fails = w.fails → w'.live = w.live → w'.err.code = ec → Q (.error ec) w') →
            WpM (do
              freeId sz.id
              freeId st.id
              freeId gr.id
              fail ec "src/nng_core.c" line msg) w3 Q := by
          intro Q ec line msg hQ
          rw [wpM_bind]
          refine wpM_freeId ({gr.id} + {st.id} + w.live) (by rw [c2]; abel) fun w4 k1 k2 k3 => ?_
          rw [wpM_bind]
          refine wpM_freeId ({gr.id} + w.live) (by rw [k2]; abel) fun w5 l1 l2 l3 => ?_
          rw [wpM_bind]
          refine wpM_freeId w.live l2 fun w6 n1 n2 n3 => ?_
          exact wpM_fail fun w7 p1 p2 p3 => hQ w7 (by rw [p1, n1, l1, k1, c1]) (by rw [p2, n2]) (by rw [p3])
        rw [wpM_bind, wpM_useK]
        refine ⟨by simpa using m1, ?_⟩
        rw [e1]
        refine (countTypes_spec h).mono ?_
        rintro szb ⟨s1, s2⟩
        rw [wpM_bind, wpM_useK]
        refine ⟨by simpa using m1, ?_⟩
        refine (sumTypes_spec h hsum s2).mono ?_
        rintro (_ | sum) hs
        · dsimp only at hs ⊢
          exact fin _ _ _ _ fun w' q1 q2 q3 => ⟨q1, q2, q3, Or.inr (Or.inl ⟨rfl, hs⟩)⟩
        · dsimp only at hs ⊢
          obtain ⟨rfl, henough⟩ := hs
          by_cases hlt : S < sumTo c T
          · rw [if_pos hlt]
            exact fin _ _ _ _ fun w' q1 q2 q3 => ⟨q1, q2, q3, Or.inr (Or.inr ⟨rfl, hlt⟩)⟩
          · rw [if_neg hlt, wpM_bind, wpM_useK]
            refine ⟨by simp [m1, m3], ?_⟩
            refine (groupEnds_spec hT s2 (by rw [e3]; simp)).mono ?_
            rintro g ⟨g1, g2⟩
            rw [wpM_bind, wpM_useK]
            refine ⟨by simp [m2, m3], ?_⟩
            refine (fillGroups_spec h (by rw [e2]; simp) g1 g2).mono ?_
            rintro ⟨stb, grb⟩ ⟨f1, f2⟩
            dsimp only at f1 f2 ⊢
            rw [wpM_pure]
            exact ⟨c1, by rw [c2]; abel, c3, by omega, rfl, s2, f1, f2, henough⟩

end Scc
