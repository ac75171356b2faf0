/-
Transpose: the array loops.
-/
import Verif.Proofs.DigraphOps

set_option linter.unusedSimpArgs false
set_option linter.unusedVariables false

namespace Scc

theorem off_add {r s t : Nat → List Nat} {n : Nat} (h : ∀ v, v < n → (r v).length = (s v).length + (t v).length) :
    off r n = off s n + off t n := by
  induction n with
  | zero => rfl
  | succ n ih => simp only [off]; rw [ih (fun v hv => h v (by omega)), h n (by omega)]; omega

theorem off_single {a n : Nat} (h : a < n) : off (fun x => List.replicate (if a == x then 1 else 0) 0) n = 1 := by
  induction n with
  | zero => omega
  | succ n ih =>
    simp only [off]
    by_cases ha : a = n
    · subst ha
      rw [off_nil (fun v hv => by simp [show a ≠ v by omega])]; simp
    · rw [ih (by omega)]; simp [ha]

theorem off_count {l : List Nat} {n v : Nat} (h : ∀ a ∈ l, a < n) : off (fun x => List.replicate (l.count x) v) n = l.length := by
  induction l with
  | nil => simp [off_nil]
  | cons a l ih =>
    rw [off_add (s := fun x => List.replicate (l.count x) v) (t := fun x => List.replicate (if a == x then 1 else 0) 0)
      (fun x _ => by simp [List.count_cons])]
    rw [ih (fun b hb => h b (by simp [hb])), off_single (h a (by simp))]; simp

theorem off_transposeRows {rows : Nat → List Nat} {n m : Nat} (h : ∀ v, v < m → ∀ a ∈ rows v, a < n) :
    off (transposeRows rows m) n = off rows m := by
  induction m with
  | zero => rw [off_nil (r := transposeRows rows 0) (fun v _ => rfl)]; rfl
  | succ m ih =>
    rw [off_add (s := transposeRows rows m) (t := fun x => List.replicate ((rows m).count x) m)
      (fun x _ => by simp [transposeRows]; omega)]
    rw [ih (fun v hv => h v (by omega)), off_count (h m (by omega))]; rfl

theorem length_transposeRows (rows : Nat → List Nat) (m x : Nat) : (transposeRows rows m x).length = (allArcs rows m).count x := by
  induction m with
  | zero => rfl
  | succ m ih => simp [transposeRows, allArcs_succ, ih]; omega

theorem length_transposeRows_mono (rows : Nat → List Nat) {m k : Nat} (h : m ≤ k) (x : Nat) :
    (transposeRows rows m x).length ≤ (transposeRows rows k x).length := by
  induction h with
  | refl => exact le_rfl
  | step _ ih => simp [transposeRows]; omega

theorem mem_transposeRows {rows : Nat → List Nat} {m x u : Nat} : u ∈ transposeRows rows m x ↔ u < m ∧ x ∈ rows u := by
  induction m with
  | zero => simp [transposeRows]
  | succ m ih =>
    simp only [transposeRows, List.mem_append, List.mem_replicate, ih]
    constructor
    · rintro (⟨h1, rfl⟩ | ⟨h1, h2⟩)
      · exact ⟨by omega, List.count_pos_iff.1 (by omega)⟩
      · exact ⟨by omega, h2⟩
    · rintro ⟨h1, h2⟩
      by_cases hu : u = m
      · subst hu; exact Or.inl ⟨(List.count_pos_iff.2 h2).ne', rfl⟩
      · exact Or.inr ⟨by omega, h2⟩

theorem count_transposeRows {rows : Nat → List Nat} {m x u : Nat} :
    (transposeRows rows m x).count u = if u < m then (rows u).count x else 0 := by
  induction m with
  | zero => simp [transposeRows]
  | succ m ih =>
    rw [transposeRows, List.count_append, List.count_replicate, ih]
    by_cases hu : u = m
    · subst hu; simp
    · by_cases h : u < m
      · simp [h, show u < m + 1 by omega, show ¬ m = u by omega]
      · simp [h, show ¬ u < m + 1 by omega, show ¬ m = u by omega]

/-- Invariant of the filling loop: `P x` lists the tails of the arcs to `x` stored so far. -/
structure Fill (n : Nat) (T P : Nat → List Nat) (h t : Buf Nat) : Prop where
  bound : ∀ x, x < n → (P x).length ≤ (T x).length
  tail_get : ∀ x, x < n → t.get x = some (off T (x + 1) - (P x).length)
  head_get : ∀ x, x < n → ∀ j u, (P x)[j]? = some u → h.get (off T (x + 1) - (P x).length + j) = some u
  tail_n : t.get n = some (off T n)
  h_len : h.len = off T n

theorem Fill.step {n : Nat} {T P : Nat → List Nat} {h t : Buf Nat} (hf : Fill n T P h t) {x v : Nat} (hx : x < n)
    (hb : (P x).length < (T x).length) :
    Wp (do
      let c ← t.get x
      if c = 0 then none
      else do
        let outTail ← t.set x (c - 1)
        let outHead ← h.set (c - 1) v
        pure (outHead, outTail)) (fun r => Fill n T (fun y => if y = x then v :: P x else P y) r.1 r.2) := by
  rw [wp_bind, wp_eq (hf.tail_get x hx)]
  have hoff : off T (x + 1) = off T x + (T x).length := rfl
  have hle : off T (x + 1) ≤ off T n := off_mono (by omega)
  have hxt := Buf.lt_of_get (hf.tail_get x hx)
  rw [if_neg (by omega)]
  simp only [wp_bind, Buf.wp_set, wp_pure]
  refine ⟨hxt, by rw [hf.h_len]; omega, ?_, ?_, ?_, ?_, by simpa using hf.h_len⟩
  · intro y hy
    by_cases hyx : y = x
    · subst hyx; simp; omega
    · simpa [hyx] using hf.bound y hy
  · intro y hy
    by_cases hyx : y = x
    · subst hyx; simp [Buf.get_upd_self _ _ hxt]; omega
    · rw [Buf.get_upd_ne _ _ hyx]; simpa [hyx] using hf.tail_get y hy
  · intro y hy j u hj
    by_cases hyx : y = x
    · subst hyx
      simp only [if_true, List.length_cons] at hj ⊢
      cases j with
      | zero =>
        simp at hj; subst hj
        rw [show off T (y + 1) - ((P y).length + 1) + 0 = off T (y + 1) - (P y).length - 1 by omega]
        exact Buf.get_upd_self _ _ (by rw [hf.h_len]; omega)
      | succ j =>
        simp at hj
        rw [Buf.get_upd_ne _ _ (by omega)]
        have := hf.head_get y hy j u hj
        rwa [show off T (y + 1) - ((P y).length + 1) + (j + 1) = off T (y + 1) - (P y).length + j by omega]
    · simp only [hyx, if_false] at hj ⊢
      have hjl : j < (P y).length := by
        by_contra hc; rw [List.getElem?_eq_none (by omega)] at hj; simp at hj
      have hby := hf.bound y hy
      have hoy : off T (y + 1) = off T y + (T y).length := rfl
      rw [Buf.get_upd_ne]
      · exact hf.head_get y hy j u hj
      · rcases Nat.lt_or_gt_of_ne hyx with h1 | h1
        · have : off T (y + 1) ≤ off T x := off_mono (by omega)
          omega
        · have : off T (x + 1) ≤ off T y := off_mono (by omega)
          omega
  · rw [Buf.get_upd_ne _ _ (by omega)]; exact hf.tail_n

theorem transposeK_spec {n : Nat} {head tail outHead outTail : Buf Nat} {rows : Nat → List Nat} (hc : Csr n head tail rows)
    (hT : ∀ v, v ≤ n → outTail.get v = some 0) (hTl : outTail.len = n + 1) (hH : outHead.len = off rows n) :
    Wp (transposeK n head tail outHead outTail) (fun r => Csr n r.1 r.2 (transposeRows rows n) ∧ r.1.len = outHead.len ∧ r.2.len = outTail.len) := by
  unfold transposeK
  rw [wp_bind, wp_eq hc.total, wp_bind, allArcsLoop_eq hc]
  set T := transposeRows rows n with hTdef
  have hoffn : off T n = off rows n := off_transposeRows hc.range
  -- counting
  have hcount : Wp ((allArcs rows n).foldlM (fun (t : Buf Nat) a => do let c ← t.get a; t.set a (c + 1)) outTail)
      (fun t => t.len = n + 1 ∧ ∀ v, v ≤ n → t.get v = some ((allArcs rows n).count v)) := by
    refine wp_foldlM (fun pre (t : Buf Nat) => t.len = n + 1 ∧ ∀ v, v ≤ n → t.get v = some (pre.count v)) _ _ ⟨hTl, by simpa using hT⟩ ?_
    rintro pre a post t hsplit ⟨h1, h2⟩
    obtain ⟨u, hu, hau⟩ := mem_allArcs.1 (show a ∈ allArcs rows n by simp [hsplit])
    have han := hc.range u hu a hau
    rw [wp_bind, wp_eq (h2 a (by omega)), Buf.wp_set]
    refine ⟨by omega, by simp [h1], fun v hv => ?_⟩
    by_cases hva : v = a
    · subst hva; rw [Buf.get_upd_self _ _ (by omega)]; simp
    · rw [Buf.get_upd_ne _ _ hva, h2 v hv]; simp [List.count_append, List.count_cons, Ne.symm hva]
  refine hcount.mono fun t1 ⟨hl1, hg1⟩ => ?_
  rw [wp_bind]
  have hlen : ∀ x, (T x).length = (allArcs rows n).count x := length_transposeRows rows n
  have hn0 : (allArcs rows n).count n = 0 := by
    rw [List.count_eq_zero]
    intro hm
    obtain ⟨u, hu, hau⟩ := mem_allArcs.1 hm
    exact absurd (hc.range u hu n hau) (by omega)
  -- prefix sums
  refine wp_forLt (fun v (t : Buf Nat) => t.len = n + 1 ∧ (∀ u, u ≤ v → t.get u = some (off T (u + 1))) ∧
      (∀ u, v < u → u ≤ n → t.get u = some (T u).length)) (Nat.zero_le _) ?_ ?_ ?_
  · refine ⟨hl1, fun u hu => ?_, fun u _ hu => by rw [hg1 u hu, hlen]⟩
    obtain rfl : u = 0 := by omega
    rw [hg1 0 (by omega)]; simp [off, hlen]
  · rintro v t - hv ⟨h1, h2, h3⟩
    rw [wp_bind, wp_eq (h3 (v + 1) (by omega) (by omega)), wp_bind, wp_eq (h2 v le_rfl), Buf.wp_set]
    refine ⟨by omega, by simp [h1], fun u hu => ?_, fun u hu1 hu2 => ?_⟩
    · by_cases huv : u = v + 1
      · subst huv; rw [Buf.get_upd_self _ _ (by omega)]; simp [off]; omega
      · rw [Buf.get_upd_ne _ _ huv]; exact h2 u (by omega)
    · rw [Buf.get_upd_ne _ _ (by omega)]; exact h3 u (by omega) hu2
  · rintro t2 ⟨hl2, hg2, -⟩
    refine wp_forLt (fun v (s : Buf Nat × Buf Nat) => Fill n T (transposeRows rows v) s.1 s.2 ∧ s.2.len = n + 1) (Nat.zero_le _) ?_ ?_ ?_
    · refine ⟨⟨fun x _ => by simp [transposeRows], fun x hx => by simpa [transposeRows] using hg2 x (by omega), fun x _ j u h => by simp [transposeRows] at h, ?_, by rw [hH, hoffn]⟩, hl2⟩
      rw [hg2 n le_rfl]; simp [off, hlen, hn0]
    · rintro v ⟨h, t⟩ - hv ⟨hf, hl⟩
      dsimp only
      rw [rowLoop_eq hc hv]
      have key := wp_foldlM (f := fun (s : Buf Nat × Buf Nat) a => do
          let c ← s.2.get a
          if c = 0 then none
          else do
            let outTail ← s.2.set a (c - 1)
            let outHead ← s.1.set (c - 1) v
            pure (outHead, outTail))
        (fun pre (s : Buf Nat × Buf Nat) => Fill n T (fun x => List.replicate (pre.count x) v ++ transposeRows rows v x) s.1 s.2 ∧ s.2.len = n + 1)
        (rows v) (h, t) (by simpa using ⟨hf, hl⟩) ?_
      · exact key
      · rintro pre a post ⟨h', t'⟩ hsplit ⟨hf', hl'⟩
        have han := hc.range v hv a (by simp [hsplit])
        have hlt : (List.replicate (pre.count a) v ++ transposeRows rows v a).length < (T a).length := by
          have : (transposeRows rows (v + 1) a).length ≤ (T a).length := length_transposeRows_mono rows (by omega) a
          rw [transposeRows, hsplit] at this
          simp at this ⊢; omega
        have hst := hf'.step (v := v) han hlt
        obtain ⟨r, hr, hr2⟩ := hst
        refine ⟨r, hr, ?_, ?_⟩
        · have hP : (fun x => List.replicate ((pre ++ [a]).count x) v ++ transposeRows rows v x) =
              (fun y => if y = a then v :: (List.replicate (pre.count a) v ++ transposeRows rows v a) else List.replicate (pre.count y) v ++ transposeRows rows v y) := ?_
          · rw [hP]; exact hr2
          funext x
          by_cases hxa : x = a
          · subst hxa; simp [List.replicate_succ]
          · simp [hxa, List.count_append, List.count_cons, Ne.symm hxa]
        · have h0 := hf'.tail_get a han
          simp only at hr h0
          rw [h0] at hr
          simp only [Option.bind_eq_bind, Option.bind_some] at hr
          split at hr
          · simp at hr
          · simp only [Buf.set] at hr
            split at hr <;> simp at hr
            split at hr <;> simp at hr
            rw [← hr]; simpa using hl'
    · rintro ⟨h, t⟩ ⟨hf, hl⟩
      simp only at hf hl
      refine ⟨⟨fun v hv => ?_, fun v hv j a hj => ?_, fun v hv a ha => (mem_transposeRows.1 ha).1⟩, by rw [hf.h_len, hH, hoffn], by rw [hl, hTl]⟩
      · by_cases hvn : v = n
        · subst hvn; exact hf.tail_n
        · rw [hf.tail_get v (by omega)]; simp [off, hTdef]
      · have := hf.head_get v hv j a hj
        simpa [off, hTdef] using this

end Scc
