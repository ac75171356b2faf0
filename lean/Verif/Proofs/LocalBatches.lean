/-
Clustering in batches, restricted to a group of points that is far from all others.
-/
import Verif.Proofs.Local
import Verif.Proofs.BatchOk

set_option linter.unusedVariables false

namespace Scc

variable {F : Type} {n m : Nat} {ι g : Nat → Nat} {γ : Nat} {le le' : Nat → Nat → Nat → Prop} {within within' : Nat → Nat → F → Prop}

theorem SeqState.captured_add {st : SeqState} {C : List Nat} {v : Nat} : ({ st with clusters := st.clusters ++ [C] } : SeqState).Captured v ↔ st.Captured v ∨ v ∈ C := by
  simp [SeqState.Captured, or_and_right, exists_or]

theorem SeqState.findIdx_none {st : SeqState} {v : Nat} (h : ¬ st.Captured v) : (st.clusters.findIdx? fun c => decide (v ∈ c)) = none := by
  rw [List.findIdx?_eq_none_iff]
  intro c hc
  simpa using fun hv => h ⟨c, hc, hv⟩

theorem SeqState.label_add {st : SeqState} {C : List Nat} {v : Nat} :
    ({ st with clusters := st.clusters ++ [C] } : SeqState).label v = if ¬ st.Captured v ∧ v ∈ C then some st.clusters.length else st.label v := by
  unfold SeqState.label
  dsimp only
  rw [List.findIdx?_append]
  by_cases h : st.Captured v
  · rw [if_neg fun hc => hc.1 h]
    cases hf : st.clusters.findIdx? fun c => decide (v ∈ c) with
    | none =>
      obtain ⟨c, hc, hv⟩ := h
      have := List.findIdx?_eq_none_iff.1 hf c hc
      simp [hv] at this
    | some i => simp
  · rw [SeqState.findIdx_none h]
    by_cases hv : v ∈ C
    · rw [if_pos ⟨h, hv⟩]
      simp [List.findIdx?_cons, hv]
    · rw [if_neg fun hc => hv hc.2]
      simp [List.findIdx?_cons, hv]

theorem SeqState.label_join {st : SeqState} {q v : Nat} {L : Option Nat} (hq : ¬ st.Captured q) :
    ({ st with joined := fun v => if v = q then L else st.joined v } : SeqState).label v = if v = q then L else st.label v := by
  unfold SeqState.label
  dsimp only
  by_cases h : v = q
  · rw [if_pos h, if_pos h, h, SeqState.findIdx_none hq]
    simp
  · rw [if_neg h, if_neg h]

/-- The states of the sequential algorithm for all points and for the part that correspond to each other; `τ` maps clusters of the part to clusters of all points. -/
structure PartState (m : Nat) (ι τ : Nat → Nat) (st st' : SeqState) : Prop where
  lt : ∀ j, j < st'.clusters.length → τ j < st.clusters.length
  inj : ∀ j j', j < st'.clusters.length → j' < st'.clusters.length → τ j = τ j' → j = j'
  captured : ∀ i, i < m → (st.Captured (ι i) ↔ st'.Captured i)
  label : ∀ i, i < m → st.label (ι i) = (st'.label i).map τ
  bound : ∀ i c, i < m → st'.label i = some c → c < st'.clusters.length

theorem PartState.init (m : Nat) (ι τ : Nat → Nat) : PartState m ι τ SeqState.init SeqState.init := by
  constructor <;> simp [SeqState.init, SeqState.Captured, SeqState.label]

/-- A point outside the part is considered. -/
theorem PartState.outside {τ : Nat → Nat} {st st' : SeqState} (h : PartState m ι τ st st') (ig : Bool) {e : Nat × Option (List Nat)} (he : ∀ i, i < m → ι i ≠ e.1)
    (ha : ¬ st.Captured e.1 → ∀ a, e.2 = some a → ∀ x ∈ a, ∀ i, i < m → ι i ≠ x) : PartState m ι τ (st.consider ig e) st' := by
  unfold SeqState.consider
  split
  · exact h
  · rename_i hcap
    obtain ⟨q, _ | a⟩ := e
    · exact h
    · dsimp only
      split
      · have hC : ∀ i, i < m → ι i ∉ seedCluster q a := by
          intro i hi hx
          rcases List.mem_cons.1 hx with hx | hx
          · exact he i hi hx
          · exact ha hcap a rfl _ (nbrs_subset hx) i hi rfl
        refine ⟨fun j hj => ?_, h.inj, fun i hi => ?_, fun i hi => ?_, h.bound⟩
        · have := h.lt j hj
          simp only [List.length_append, List.length_cons, List.length_nil]
          omega
        · rw [SeqState.captured_add, ← h.captured i hi]
          exact or_iff_left (hC i hi)
        · rw [SeqState.label_add, if_neg fun hc => hC i hi hc.2]
          exact h.label i hi
      · split
        · exact h
        · refine ⟨h.lt, h.inj, h.captured, fun i hi => ?_, h.bound⟩
          rw [SeqState.label_join hcap, if_neg (he i hi)]
          exact h.label i hi

/-- A point of the part is considered. -/
theorem PartState.inside (hι : Picks n m ι) {τ : Nat → Nat} {st st' : SeqState} (h : PartState m ι τ st st') (ig : Bool) {i : Nat} (hi : i < m) {a a' : Option (List Nat)}
    (ha : ¬ st.Captured (ι i) → a' = a.map (pull m ι) ∧ ∀ l, a = some l → (pull m ι l).map ι = l) :
    ∃ τ', PartState m ι τ' (st.consider ig (ι i, a)) (st'.consider ig (i, a')) := by
  by_cases hcap : st.Captured (ι i)
  · exact ⟨τ, by rw [SeqState.consider_captured (e := (ι i, a)) hcap, SeqState.consider_captured (e := (i, a')) ((h.captured i hi).1 hcap)]; exact h⟩
  obtain ⟨rfl, hl⟩ := ha hcap
  have hcap' := fun hc => hcap ((h.captured i hi).2 hc)
  unfold SeqState.consider
  rw [if_neg hcap, if_neg hcap']
  cases a with
  | none => exact ⟨τ, h⟩
  | some l =>
    have hl := hl l rfl
    have hlm : ∀ x ∈ pull m ι l, x < m := fun x hx => (hι.mem_pull.1 hx).1
    have hcl : ∀ j, j < m → (ι j ∈ seedCluster (ι i) l ↔ j ∈ seedCluster i (pull m ι l)) := by
      intro j hj
      unfold seedCluster
      rw [List.mem_cons, List.mem_cons, ← hι.pull_nbrs hi hl, hι.mem_pull]
      exact or_congr ⟨fun e => hι.inj hj hi e, fun e => by rw [e]⟩ ⟨fun h => ⟨hj, h⟩, fun h => h.2⟩
    dsimp only [Option.map_some]
    have hf : (l.find? fun x => decide (st.Captured x)) = ((pull m ι l).find? fun x => decide (st'.Captured x)).map ι := by
      conv_lhs => rw [← hl]
      rw [List.find?_map]
      congr 1
      clear hl hcl
      generalize pull m ι l = l' at hlm
      induction l' with
      | nil => rfl
      | cons x l' ih =>
        rw [List.find?_cons, List.find?_cons, ih fun y hy => hlm y (by simp [hy])]
        have : ((fun x => decide (st.Captured x)) ∘ ι) x = decide (st'.Captured x) := decide_eq_decide.2 (h.captured x (hlm x (by simp)))
        rw [this]
    rw [hf]
    cases hx : (pull m ι l).find? fun x => decide (st'.Captured x) with
    | none =>
      dsimp only [Option.map_none]
      have hlt : ∀ j, j < st'.clusters.length → (if j = st'.clusters.length then st.clusters.length else τ j) = τ j := fun j hj => if_neg (by omega)
      refine ⟨fun j => if j = st'.clusters.length then st.clusters.length else τ j, fun j hj => ?_, fun j j' hj hj' e => ?_, fun j hj => ?_, fun j hj => ?_, fun j c hj hc => ?_⟩
      · simp only [List.length_append, List.length_cons, List.length_nil] at hj ⊢
        by_cases hjl : j = st'.clusters.length
        · rw [if_pos hjl]; omega
        · rw [if_neg hjl]
          have := h.lt j (by omega)
          omega
      · simp only [List.length_append, List.length_cons, List.length_nil] at hj hj'
        by_cases h1 : j = st'.clusters.length
        · by_cases h2 : j' = st'.clusters.length
          · omega
          · rw [if_pos h1, if_neg h2] at e
            have := h.lt j' (by omega)
            omega
        · by_cases h2 : j' = st'.clusters.length
          · rw [if_neg h1, if_pos h2] at e
            have := h.lt j (by omega)
            omega
          · rw [if_neg h1, if_neg h2] at e
            exact h.inj j j' (by omega) (by omega) e
      · rw [SeqState.captured_add, SeqState.captured_add, h.captured j hj, hcl j hj]
      · rw [SeqState.label_add, SeqState.label_add]
        have hiff := and_congr (not_congr (h.captured j hj)) (hcl j hj)
        by_cases hn : ¬ st'.Captured j ∧ j ∈ seedCluster i (pull m ι l)
        · rw [if_pos (hiff.2 hn), if_pos hn]; simp
        · rw [if_neg fun hc => hn (hiff.1 hc), if_neg hn, h.label j hj]
          cases hc : st'.label j with
          | none => rfl
          | some c => simp [hlt c (h.bound j c hj hc)]
      · rw [SeqState.label_add] at hc
        simp only [List.length_append, List.length_cons, List.length_nil]
        split at hc
        · cases hc; omega
        · have := h.bound j c hj hc; omega
    | some x =>
      have hxm := hlm x (List.mem_of_find?_eq_some hx)
      dsimp only [Option.map_some]
      cases ig with
      | true => exact ⟨τ, h⟩
      | false =>
        rw [if_neg (by decide), if_neg (by decide)]
        refine ⟨τ, h.lt, h.inj, h.captured, fun j hj => ?_, fun j c hj hc => ?_⟩
        · rw [SeqState.label_join hcap, SeqState.label_join hcap']
          by_cases hji : j = i
          · rw [if_pos (by rw [hji]), if_pos hji]
            exact h.label x hxm
          · rw [if_neg fun e => hji (hι.inj hj hi e), if_neg hji]
            exact h.label j hj
        · rw [SeqState.label_join hcap'] at hc
          split at hc
          · exact h.bound x c hxm hc
          · exact h.bound j c hj hc

theorem GoodAnswers.prefix {ig : Bool} {C : Nat → Option (List Nat) → Prop} {pre post : List (Nat × Option (List Nat))} (h : GoodAnswers ig C (pre ++ post)) : GoodAnswers ig C pre := by
  intro p e q he
  exact h p e (q ++ post) (by rw [he]; simp)

/-- The run for all points and the run for the part. -/
theorem PartState.run {cfg : Cfg} (hι : Picks n m ι) (hd : SameNearby m ι le le' within within') (hsep : Separated le n g) (hg : IsGroup n m ι g γ)
    (hdet : Determined cfg (Strict m (Nearest le' within'))) {S : Nat} {R : Option F} (ig : Bool) {evs evs' : List (Nat × Option (List Nat))} (hlt : ∀ x ∈ evs.map Prod.fst, x < n)
    (hbig : ∀ x ∈ evs.map Prod.fst, S ≤ (groupOf n g x).length) (hfst : evs'.map Prod.fst = pull m ι (evs.map Prod.fst))
    (h : GoodAnswers ig (AnswerOk (Stored cfg (Strict n (Nearest le within))) n S R) evs) (h' : GoodAnswers ig (AnswerOk (Stored cfg (Strict m (Nearest le' within'))) m S R) evs') :
    ∃ τ, PartState m ι τ (seqRun ig evs) (seqRun ig evs') := by
  induction evs using List.reverseRecOn generalizing evs' with
  | nil =>
    cases evs' with
    | nil => exact ⟨id, PartState.init m ι id⟩
    | cons e l => cases hfst
  | append_singleton evs e ih =>
    have hlt1 : ∀ x ∈ evs.map Prod.fst, x < n := fun x hx => hlt x (by rw [List.map_append]; exact List.mem_append_left _ hx)
    have hbig1 : ∀ x ∈ evs.map Prod.fst, S ≤ (groupOf n g x).length := fun x hx => hbig x (by rw [List.map_append]; exact List.mem_append_left _ hx)
    have hen : e.1 < n := hlt _ (by simp)
    have heS : S ≤ (groupOf n g e.1).length := hbig _ (by simp)
    rw [List.map_append, pull_append] at hfst
    rw [seqRun_append, List.foldl_cons, List.foldl_nil]
    by_cases hin : ∃ i, i < m ∧ ι i = e.1
    · obtain ⟨i, hi, hie⟩ := hin
      have hp : pull m ι ([e].map Prod.fst) = [i] := by
        rw [List.map_cons, List.map_nil, ← hie]
        exact hι.pull_map (l := [i]) (by simpa using hi)
      rw [hp] at hfst
      obtain ⟨pre', post', rfl, h1, h2⟩ := List.map_eq_append_iff.1 hfst
      obtain ⟨e', rfl, rfl⟩ := List.map_eq_singleton_iff.1 h2
      obtain ⟨τ, hst⟩ := ih hlt1 hbig1 h1 h.prefix h'.prefix
      rw [seqRun_append, List.foldl_cons, List.foldl_nil]
      obtain ⟨q, a⟩ := e
      obtain ⟨i, a'⟩ := e'
      dsimp only at hie hi hen heS
      subst hie
      refine hst.inside hι ig hi fun hcap => ?_
      obtain ⟨⟨a₀, k1, rfl⟩, -⟩ := (h evs (ι i, a) [] rfl).resolve_left hcap
      obtain ⟨⟨b₀, k2, rfl⟩, -⟩ := (h' pre' (i, a') [] rfl).resolve_left fun hc => hcap ((hst.captured i hi).2 hc)
      obtain ⟨n1, n2⟩ := hι.near hd hsep hg hi k1 (by rw [hι.pull_range, List.length_range, ← hι.groupOf_length hg hi]; exact heS)
      rw [hι.pull_range] at n2
      refine ⟨?_, fun l hl => ?_⟩
      · rw [hdet.stored_eq k2 n2, Option.map_map, Option.map_map]
        congr 1
        funext l
        exact (hι.pull_stored cfg l).symm
      · obtain ⟨l₀, hl₀, rfl⟩ := Option.map_eq_some_iff.1 hl
        refine hι.map_pull fun x hx => ?_
        rw [mem_stored, ← n1 l₀ hl₀] at hx
        obtain ⟨j, hj, rfl⟩ := List.mem_map.1 hx
        exact ⟨j, (hι.mem_pull.1 hj).1, rfl⟩
    · have hp : pull m ι ([e].map Prod.fst) = [] := by
        rw [List.map_cons, List.map_nil, pull_cons_out fun i hi e' => hin ⟨i, hi, e'⟩]
        rfl
      rw [hp, List.append_nil] at hfst
      obtain ⟨τ, hst⟩ := ih hlt1 hbig1 hfst h.prefix h'
      refine ⟨τ, hst.outside ig (fun i hi e' => hin ⟨i, hi, e'⟩) fun hcap a ha x hx i hi hix => ?_⟩
      obtain ⟨⟨a₀, ⟨k1, k2, k3, k4, k5⟩, k6⟩, -⟩ := (h evs e [] rfl).resolve_left hcap
      rw [ha] at k6
      obtain ⟨l₀, rfl, rfl⟩ := Option.map_eq_some_iff.1 k6.symm
      rw [mem_stored] at hx
      obtain ⟨g1, g2, g3⟩ := k2.2 l₀ rfl
      have hgx := nearest_group hsep k5 k4 k3 g3 g2 (fun x hx _ => k1.2.2 x hx) (by rw [g1]; exact heS) x hx
      rw [← hix, hι.group hg hi] at hgx
      exact hin ((hg e.1 hen).1 hgx.symm)

/-- The labels. -/
theorem PartState.same {cfg : Cfg} (hcfg : cfg.Valid) (hι : Picks n m ι) {τ : Nat → Nat} {st st' : SeqState} (h : PartState m ι τ st st') (hcap : st.clusters.length ≤ cfg.clabelMax)
    (hcap' : st'.clusters.length ≤ cfg.clabelMax) {b b' : Buf Int} (hb : LabelsAre cfg n b st.label) (hb' : LabelsAre cfg m b' st'.label) : SameInPart cfg m ι b b' := by
  refine sameInPart_of_labels hcfg hι h.label (fun i hi c hc => ?_) (fun i hi c hc => ?_) hb hb' fun i j x y hi hj hx hy e => h.inj x y (h.bound i x hi hx) (h.bound j y hj hy) e
  · rw [h.label i hi] at hc
    obtain ⟨c', hc', rfl⟩ := Option.map_eq_some_iff.1 hc
    exact lt_of_lt_of_le (h.lt _ (h.bound i c' hi hc')) hcap
  · exact lt_of_lt_of_le (h.bound i c hi hc) hcap'

end Scc
