/-
Facts about the sequential algorithm of Spec/Batches.lean.
-/
import Mathlib.Data.List.Induction
import Verif.Spec.Batches

set_option linter.unusedSimpArgs false
set_option linter.unusedVariables false

namespace Scc

theorem SeqState.consider_captured {ig : Bool} {st : SeqState} {e : Nat × Option (List Nat)} (h : st.Captured e.1) : st.consider ig e = st := by simp [SeqState.consider, h]

theorem SeqState.consider_none {ig : Bool} {st : SeqState} {q : Nat} : st.consider ig (q, none) = st := by simp [SeqState.consider]

theorem SeqState.clusters_consider (ig : Bool) (st : SeqState) (e : Nat × Option (List Nat)) : ∃ t, (st.consider ig e).clusters = st.clusters ++ t := by
  unfold SeqState.consider
  split
  · exact ⟨[], by simp⟩
  · split
    · exact ⟨[], by simp⟩
    · split
      · exact ⟨_, rfl⟩
      · split
        · exact ⟨[], by simp⟩
        · exact ⟨[], by simp⟩

theorem clusters_foldl (ig : Bool) (evs : List (Nat × Option (List Nat))) (st : SeqState) : ∃ t, (evs.foldl (SeqState.consider ig) st).clusters = st.clusters ++ t := by
  induction evs generalizing st with
  | nil => exact ⟨[], by simp⟩
  | cons e evs ih =>
    obtain ⟨t1, h1⟩ := st.clusters_consider ig e
    obtain ⟨t2, h2⟩ := ih (st.consider ig e)
    exact ⟨t1 ++ t2, by rw [List.foldl_cons, h2, h1, List.append_assoc]⟩

theorem length_clusters_foldl (ig : Bool) (evs : List (Nat × Option (List Nat))) (st : SeqState) : st.clusters.length ≤ (evs.foldl (SeqState.consider ig) st).clusters.length := by
  obtain ⟨t, h⟩ := clusters_foldl ig evs st
  rw [h]; simp

theorem SeqState.Captured.foldl {ig : Bool} {st : SeqState} {x : Nat} (h : st.Captured x) (evs : List (Nat × Option (List Nat))) :
    (evs.foldl (SeqState.consider ig) st).Captured x := by
  obtain ⟨t, ht⟩ := clusters_foldl ig evs st
  obtain ⟨c, h1, h2⟩ := h
  exact ⟨c, by rw [ht]; simp [h1], h2⟩

theorem SeqState.Captured.consider {ig : Bool} {st : SeqState} {x : Nat} (h : st.Captured x) (e : Nat × Option (List Nat)) : (st.consider ig e).Captured x :=
  h.foldl [e]

/-- Points that are captured at the beginning can be left out. -/
theorem foldl_filter_captured {ig : Bool} (st0 : SeqState) (evs : List (Nat × Option (List Nat))) (st : SeqState) (h : ∀ x, st0.Captured x → st.Captured x) :
    (evs.filter fun e => decide (¬ st0.Captured e.1)).foldl (SeqState.consider ig) st = evs.foldl (SeqState.consider ig) st := by
  induction evs generalizing st with
  | nil => rfl
  | cons e evs ih =>
    rw [List.foldl_cons]
    by_cases he : st0.Captured e.1
    · rw [List.filter_cons_of_neg (by simpa using he), SeqState.consider_captured (h _ he)]
      exact ih st h
    · rw [List.filter_cons_of_pos (by simpa using he), List.foldl_cons]
      exact ih _ fun x hx => (h x hx).consider e

/-- Points without answer can be left out. -/
theorem foldl_answered {ig : Bool} (res : List (Nat × Option (List Nat))) (st : SeqState) :
    ((answered res).map fun p => (p.1, some p.2)).foldl (SeqState.consider ig) st = res.foldl (SeqState.consider ig) st := by
  induction res generalizing st with
  | nil => rfl
  | cons e res ih =>
    obtain ⟨q, a⟩ := e
    cases a with
    | none =>
      rw [List.foldl_cons, SeqState.consider_none]
      simpa [answered] using ih st
    | some a =>
      rw [List.foldl_cons]
      have : answered ((q, some a) :: res) = (q, a) :: answered res := by simp [answered]
      rw [this, List.map_cons, List.foldl_cons]
      exact ih _

theorem seqRun_append (ig : Bool) (a b : List (Nat × Option (List Nat))) : seqRun ig (a ++ b) = b.foldl (SeqState.consider ig) (seqRun ig a) := by
  simp [seqRun, List.foldl_append]

theorem GoodAnswers.append {ig : Bool} {C : Nat → Option (List Nat) → Prop} {evs ext : List (Nat × Option (List Nat))} (h : GoodAnswers ig C evs)
    (hx : ∀ e ∈ ext, (seqRun ig evs).Captured e.1 ∨ C e.1 e.2) : GoodAnswers ig C (evs ++ ext) := by
  intro pre e post he
  rcases List.append_eq_append_iff.1 he with ⟨t, h1, h2⟩ | ⟨t, h1, h2⟩
  · have : e ∈ ext := by rw [h2]; simp
    rcases hx e this with h3 | h3
    · left
      rw [h1, seqRun_append]
      exact h3.foldl t
    · exact Or.inr h3
  · cases t with
    | nil =>
      simp at h1 h2
      rcases hx e (by rw [← h2]; simp) with h3 | h3
      · left; rw [← h1]; exact h3
      · exact Or.inr h3
    | cons e' t =>
      simp at h2
      obtain ⟨rfl, h2⟩ := h2
      exact h pre e t h1

/-- With answers given by a function, the result does not depend on anything else. -/
theorem seqRun_functional {ig : Bool} {f : Nat → Option (List Nat)} {evs : List (Nat × Option (List Nat))} (h : GoodAnswers ig (fun q a => a = f q) evs) :
    seqRun ig evs = seqRun ig ((evs.map Prod.fst).map fun q => (q, f q)) := by
  induction evs using List.reverseRecOn with
  | nil => rfl
  | append_singleton evs e ih =>
    have hg : GoodAnswers ig (fun q a => a = f q) evs := fun pre e' post he => h pre e' (post ++ [e]) (by simp [he])
    rw [List.map_append, List.map_append, seqRun_append, seqRun_append, ← ih hg]
    simp only [List.map_cons, List.map_nil, List.foldl_cons, List.foldl_nil]
    rcases h evs e [] rfl with h1 | h1
    · rw [SeqState.consider_captured h1, SeqState.consider_captured (by exact h1)]
    · obtain ⟨q, a⟩ := e
      dsimp only at h1 ⊢
      rw [h1]

theorem captured_iff {st : SeqState} {x : Nat} : st.Captured x ↔ ((st.clusters.findIdx? fun c => decide (x ∈ c)).isSome = true) := by
  simp [SeqState.Captured]

/-- Facts about the clusters made so far. -/
structure SeqOk (n S : Nat) (st : SeqState) : Prop where
  size : ∀ c ∈ st.clusters, c.length = S ∧ c.Nodup ∧ ∀ x ∈ c, x < n
  disjoint : st.clusters.Pairwise fun c d => ∀ x ∈ c, x ∉ d
  joined : ∀ v c, st.joined v = some c → c < st.clusters.length

theorem mem_nbrs {q x : Nat} {a : List Nat} (h : x ∈ nbrs q a) : x ∈ a := by
  unfold nbrs at h
  split at h
  · exact List.mem_of_mem_filter h
  · exact List.dropLast_subset _ h

theorem mem_seedCluster {q x : Nat} {a : List Nat} (hn : a.Nodup) : x ∈ seedCluster q a ↔ x ∈ a.dropLast ∨ x = q ∨ q ∈ a.dropLast ∧ x ∈ a := by
  unfold seedCluster nbrs
  rw [List.mem_cons]
  split
  · rename_i hq
    have hne : a ≠ [] := List.ne_nil_of_mem hq
    by_cases hqd : q ∈ a.dropLast
    · constructor
      · rintro (h | h)
        · exact Or.inr (Or.inl h)
        · exact Or.inr (Or.inr ⟨hqd, List.mem_of_mem_filter h⟩)
      · rintro (h | h | ⟨-, h⟩)
        · by_cases hx : x = q
          · exact Or.inl hx
          · exact Or.inr (List.mem_filter.2 ⟨List.dropLast_subset _ h, by simpa using hx⟩)
        · exact Or.inl h
        · by_cases hx : x = q
          · exact Or.inl hx
          · exact Or.inr (List.mem_filter.2 ⟨h, by simpa using hx⟩)
    · have hl := List.dropLast_append_getLast hne
      have hlast : a.getLast hne = q := by
        rw [← hl, List.mem_append] at hq
        rcases hq with h | h
        · exact absurd h hqd
        · simpa using (List.mem_singleton.1 h).symm
      constructor
      · rintro (h | h)
        · exact Or.inr (Or.inl h)
        · obtain ⟨h1, h2⟩ := List.mem_filter.1 h
          left
          rw [← hl, List.mem_append] at h1
          rcases h1 with h | h
          · exact h
          · rw [List.mem_singleton, hlast] at h
            exact absurd h (by simpa using h2)
      · rintro (h | h | ⟨h, -⟩)
        · by_cases hx : x = q
          · exact Or.inl hx
          · exact Or.inr (List.mem_filter.2 ⟨List.dropLast_subset _ h, by simpa using hx⟩)
        · exact Or.inl h
        · exact absurd h hqd
  · rename_i hq
    constructor
    · rintro (h | h)
      · exact Or.inr (Or.inl h)
      · exact Or.inl h
    · rintro (h | h | ⟨h, -⟩)
      · exact Or.inr h
      · exact Or.inl h
      · exact absurd (List.dropLast_subset _ h) hq

theorem seedCluster_subset {q x : Nat} {a : List Nat} (h : x ∈ seedCluster q a) : x = q ∨ x ∈ a := by
  rcases List.mem_cons.1 h with h | h
  · exact Or.inl h
  · exact Or.inr (mem_nbrs h)

theorem seedCluster_nodup {q : Nat} {a : List Nat} (hn : a.Nodup) : (seedCluster q a).Nodup := by
  unfold seedCluster nbrs
  refine List.nodup_cons.2 ⟨?_, ?_⟩
  · split
    · simp
    · rename_i h; exact fun h' => h (List.dropLast_subset _ h')
  · split
    · exact hn.filter _
    · exact hn.sublist (List.dropLast_sublist _)

theorem seedCluster_length {q S : Nat} {a : List Nat} (hn : a.Nodup) (hl : a.length = S) (hS : 0 < S) : (seedCluster q a).length = S := by
  unfold seedCluster nbrs
  rw [List.length_cons]
  split
  · rename_i h
    have : (a.filter fun x => decide (x ≠ q)) = a.erase q := by
      rw [hn.erase_eq_filter]
      congr 1
      funext x
      simp [bne]
      by_cases hx : x = q <;> simp [hx]
    rw [this, List.length_erase_of_mem h]
    omega
  · rw [List.length_dropLast]; omega

theorem SeqOk.init (n S : Nat) : SeqOk n S SeqState.init := ⟨by simp [SeqState.init], by simp [SeqState.init], by simp [SeqState.init]⟩

theorem SeqOk.label_lt {n S : Nat} {st : SeqState} (h : SeqOk n S st) {v c : Nat} (hc : st.label v = some c) : c < st.clusters.length := by
  unfold SeqState.label at hc
  cases hf : st.clusters.findIdx? fun c => decide (v ∈ c) with
  | some i =>
    rw [hf] at hc
    simp at hc
    subst hc
    exact (List.findIdx?_eq_some_iff_getElem.1 hf).1
  | none =>
    rw [hf] at hc
    exact h.joined v c hc

theorem SeqOk.consider {n S : Nat} {st : SeqState} (h : SeqOk n S st) (ig : Bool) {e : Nat × Option (List Nat)} (hq : e.1 < n) (hS : 0 < S)
    (ha : ∀ a, e.2 = some a → a.length = S ∧ a.Nodup ∧ a ⊆ List.range n) : SeqOk n S (st.consider ig e) := by
  obtain ⟨q, a⟩ := e
  unfold SeqState.consider
  split
  · exact h
  · rename_i hcap
    cases a with
    | none => exact h
    | some a =>
      obtain ⟨h1, h2, h3⟩ := ha a rfl
      dsimp only at hcap hq ⊢
      split
      · rename_i hfind
        have hfree : ∀ x ∈ seedCluster q a, ¬ st.Captured x := by
          intro x hx
          rcases seedCluster_subset hx with rfl | hx
          · exact hcap
          · have := List.find?_eq_none.1 hfind x hx
            simpa using this
        refine ⟨?_, ?_, ?_⟩
        · intro c hc
          rcases List.mem_append.1 hc with hc | hc
          · exact h.size c hc
          · rw [List.mem_singleton] at hc
            subst hc
            refine ⟨seedCluster_length h2 h1 hS, seedCluster_nodup h2, fun x hx => ?_⟩
            rcases seedCluster_subset hx with rfl | hx
            · exact hq
            · exact List.mem_range.1 (h3 hx)
        · rw [List.pairwise_append]
          refine ⟨h.disjoint, by simp, fun c hc d hd x hx hxd => ?_⟩
          rw [List.mem_singleton] at hd
          subst hd
          exact hfree x hxd ⟨c, hc, hx⟩
        · intro v c hc
          have := h.joined v c hc
          rw [List.length_append]; omega
      · rename_i x hfind
        split
        · exact h
        · refine ⟨h.size, h.disjoint, fun v c hc => ?_⟩
          dsimp only at hc ⊢
          split at hc
          · exact h.label_lt hc
          · exact h.joined v c hc

theorem SeqOk.foldl {n S : Nat} {st : SeqState} (h : SeqOk n S st) (ig : Bool) (hS : 0 < S) {evs : List (Nat × Option (List Nat))}
    (he : ∀ e ∈ evs, e.1 < n ∧ (∀ a, e.2 = some a → a.length = S ∧ a.Nodup ∧ a ⊆ List.range n)) : SeqOk n S (evs.foldl (SeqState.consider ig) st) := by
  induction evs generalizing st with
  | nil => exact h
  | cons e evs ih =>
    rw [List.foldl_cons]
    exact ih (h.consider ig (he e (by simp)).1 hS (he e (by simp)).2) fun e' he' => he e' (by simp [he'])

theorem SeqOk.run {F : Type} {A : Criterion F} {n S : Nat} {R : Option F} (ig : Bool) (hS : 0 < S) {evs : List (Nat × Option (List Nat))}
    (hg : GoodAnswers ig (AnswerOk A n S R) evs) (hr : ∀ e ∈ evs, e.1 < n) : SeqOk n S (seqRun ig evs) := by
  induction evs using List.reverseRecOn with
  | nil => exact SeqOk.init n S
  | append_singleton evs e ih =>
    have h := ih (fun pre e' post he => hg pre e' (post ++ [e]) (by simp [he])) fun e' he' => hr e' (by simp [he'])
    rw [seqRun_append]
    simp only [List.foldl_cons, List.foldl_nil]
    rcases hg evs e [] rfl with h1 | h1
    · rw [SeqState.consider_captured h1]; exact h
    · exact h.consider ig (hr e (by simp)) hS h1.2.2

/-- Clusters around seeds keep their index. -/
theorem SeqState.label_consider {ig : Bool} {st : SeqState} {e : Nat × Option (List Nat)} {v : Nat} (h : st.Captured v) : (st.consider ig e).label v = st.label v := by
  obtain ⟨t, ht⟩ := st.clusters_consider ig e
  unfold SeqState.label
  rw [ht, List.findIdx?_append]
  obtain ⟨i, hi⟩ := Option.isSome_iff_exists.1 (captured_iff.1 h)
  rw [hi]
  rfl

theorem SeqState.label_foldl {ig : Bool} {st : SeqState} {evs : List (Nat × Option (List Nat))} {v : Nat} (h : st.Captured v) :
    (evs.foldl (SeqState.consider ig) st).label v = st.label v := by
  induction evs generalizing st with
  | nil => rfl
  | cons e evs ih => rw [List.foldl_cons, ih (h.consider e), SeqState.label_consider h]

end Scc
