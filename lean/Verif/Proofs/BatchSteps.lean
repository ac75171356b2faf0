/-
The loops of src/nng_batch_clustering.c follow the sequential algorithm.
-/
import Verif.Model.Batches
import Verif.Proofs.BatchSeq
import Verif.Proofs.Labels

set_option linter.unusedSimpArgs false
set_option linter.unusedVariables false

namespace Scc

variable {F : Type} [FloatOps F]

/-- Marks and labels of the code describe the state of the sequential algorithm; all points before `cur` have been looked at. -/
structure BRep (cfg : Cfg) (n ll cur : Nat) (st : SeqState) (b : BatchSt) : Prop where
  next : b.next = st.clusters.length
  cap : st.clusters.length ≤ cfg.clabelMax
  alen : n ≤ b.assigned.len
  llen : b.labels.len = ll
  room : n ≤ ll
  assigned : ∀ v, v < n → b.assigned.get v = some (decide (st.Captured v))
  labels : ∀ v, v < n → st.Captured v ∨ v < cur → b.labels.get v = some (encLabel cfg (st.label v))

/-- While the points `X` are being assigned to a new cluster. -/
structure TRep (cfg : Cfg) (n ll cur : Nat) (st : SeqState) (X : List Nat) (b : BatchSt) : Prop where
  next : b.next = st.clusters.length
  alen : n ≤ b.assigned.len
  llen : b.labels.len = ll
  room : n ≤ ll
  assigned : ∀ v, v < n → b.assigned.get v = some (decide (st.Captured v ∨ v ∈ X))
  labels : ∀ v, v < n → v ∈ X ∨ st.Captured v ∨ v < cur → b.labels.get v = some (if v ∈ X then (st.clusters.length : Int) else encLabel cfg (st.label v))

theorem TRep.take {cfg : Cfg} {n ll cur : Nat} {st : SeqState} {X : List Nat} {b : BatchSt} (h : TRep cfg n ll cur st X b) {p : Nat} (hp : p < n) :
    Wp (b.take p) (TRep cfg n ll cur st (X ++ [p])) := by
  have h1 := h.alen
  have h2 := h.llen
  have h3 := h.room
  unfold BatchSt.take
  rw [wp_bind, Buf.wp_set]
  refine ⟨by omega, ?_⟩
  rw [wp_bind, Buf.wp_set]
  refine ⟨by omega, ?_⟩
  rw [wp_pure]
  refine ⟨h.next, by simpa using h.alen, by simpa using h.llen, h.room, fun v hv => ?_, fun v hv hor => ?_⟩
  · dsimp only
    by_cases hvp : v = p
    · subst hvp
      rw [Buf.get_upd_self _ _ (by omega)]
      simp
    · rw [Buf.get_upd_ne _ _ hvp, h.assigned v hv]
      simp [hvp]
  · dsimp only
    by_cases hvp : v = p
    · subst hvp
      rw [Buf.get_upd_self _ _ (by omega), h.next]
      simp
    · rw [Buf.get_upd_ne _ _ hvp]
      have : v ∈ X ++ [p] ↔ v ∈ X := by simp [hvp]
      rw [this] at hor
      rw [h.labels v hv hor]
      simp [hvp]

theorem BRep.toT {cfg : Cfg} {n ll cur : Nat} {st : SeqState} {b : BatchSt} (h : BRep cfg n ll cur st b) : TRep cfg n ll cur st [] b :=
  ⟨h.next, h.alen, h.llen, h.room, fun v hv => by rw [h.assigned v hv]; simp, fun v hv hor => by
    have : st.Captured v ∨ v < cur := by simpa using hor
    rw [h.labels v hv this]; simp⟩

theorem label_snoc {st : SeqState} {c : List Nat} {v : Nat} (hd : ∀ x ∈ c, ¬ st.Captured x) : ({ st with clusters := st.clusters ++ [c] } : SeqState).label v =
    if v ∈ c then some st.clusters.length else st.label v := by
  unfold SeqState.label
  dsimp only
  rw [List.findIdx?_append]
  by_cases hv : v ∈ c
  · have : st.clusters.findIdx? (fun c => decide (v ∈ c)) = none := by
      have h := hd v hv
      rw [captured_iff] at h
      simpa using h
    rw [this, if_pos hv]
    simp [hv]
  · rw [if_neg hv]
    cases h : st.clusters.findIdx? fun c => decide (v ∈ c) <;> simp [hv]

theorem seqCaptured_snoc {st : SeqState} {c : List Nat} {v : Nat} : ({ st with clusters := st.clusters ++ [c] } : SeqState).Captured v ↔ st.Captured v ∨ v ∈ c := by
  simp [SeqState.Captured, or_and_right, exists_or]

/-- One answered query. -/
theorem batchStep_spec {cfg : Cfg} {n ll cur S : Nat} {ig : Bool} {okq out : Buf Nat} {i q : Nat} {a : List Nat} {st : SeqState} {b : BatchSt} (h : BRep cfg n ll cur st b)
    (hq : okq.get i = some q) (hqn : q < n) (hqc : q < cur) (hS : 0 < S) (hal : a.length = S) (han : a.Nodup) (har : a ⊆ List.range n)
    (hout : ∀ t x, a[t]? = some x → out.get (i * S + t) = some x) :
    Wp (batchStep cfg S ig okq out i b) fun c => match c with
      | .next b' => BRep cfg n ll cur (st.consider ig (q, some a)) b'
      | .stop b' => cfg.clabelMax < (st.consider ig (q, some a)).clusters.length ∧ b'.labels.len = ll := by
  unfold batchStep
  rw [wp_bind, wp_eq hq, wp_bind, wp_eq (h.assigned q hqn)]
  by_cases hcap : st.Captured q
  · rw [if_pos (by simpa using hcap), wp_pure]
    dsimp only
    rw [SeqState.consider_captured (by exact hcap)]
    exact h
  · rw [if_neg (by simpa using hcap), wp_bind]
    refine wp_forLtB (fun j _ => ∀ t x, i * S + t < j → a[t]? = some x → ¬ st.Captured x) (fun x => a.find? (fun x => decide (st.Captured x)) = some x) (by omega)
      (fun t x h => by omega) ?_ ?_ ?_
    · intro j _ h1 h2 hi
      obtain ⟨t, rfl⟩ : ∃ t, j = i * S + t := ⟨j - i * S, by omega⟩
      have ht : t < a.length := by omega
      have hg := List.getElem?_eq_getElem ht
      rw [wp_bind, wp_eq (hout t _ hg)]
      have hxn : a[t] < n := List.mem_range.1 (har (List.getElem_mem ht))
      rw [wp_bind, wp_eq (h.assigned _ hxn)]
      by_cases hx : st.Captured a[t]
      · rw [if_pos (by simpa using hx), wp_pure]
        dsimp only
        rw [List.find?_eq_some_iff_getElem]
        refine ⟨by simpa using hx, t, ht, rfl, fun j hj => ?_⟩
        simpa using hi j a[j] (by omega) (List.getElem?_eq_getElem (by omega))
      · rw [if_neg (by simpa using hx), wp_pure]
        dsimp only
        intro t' x' h3 h4
        rcases Nat.lt_or_eq_of_le (show t' ≤ t by omega) with h5 | rfl
        · exact hi t' x' (by omega) h4
        · rw [hg] at h4; rw [← Option.some.inj h4]; exact hx
    · intro _ hi
      have hfree : ∀ x ∈ a, ¬ st.Captured x := by
        intro x hx
        obtain ⟨t, ht⟩ := List.mem_iff_getElem?.1 hx
        have : t < a.length := (List.getElem?_eq_some_iff.1 ht).1
        exact hi t x (by omega) ht
      have hnone : a.find? (fun x => decide (st.Captured x)) = none := List.find?_eq_none.2 fun x hx => by simpa using hfree x hx
      have hcons : st.consider ig (q, some a) = { st with clusters := st.clusters ++ [seedCluster q a] } := by
        unfold SeqState.consider
        rw [if_neg (by exact hcap)]
        dsimp only
        rw [hnone]
      rw [hcons]
      dsimp only
      have hcl : ∀ x ∈ seedCluster q a, ¬ st.Captured x := by
        intro x hx
        rcases seedCluster_subset hx with rfl | hx
        · exact hcap
        · exact hfree x hx
      by_cases hmax : b.next = cfg.clabelMax
      · rw [if_pos hmax, wp_pure]
        dsimp only
        refine ⟨?_, h.llen⟩
        rw [List.length_append, ← hmax, h.next]; simp
      · rw [if_neg hmax, wp_bind]
        refine wp_forLt (fun j b => TRep cfg n ll cur st (a.take (j - i * S)) b) (by omega) (by simpa using h.toT) ?_ ?_
        · intro j b h1 h2 hb
          obtain ⟨t, rfl⟩ : ∃ t, j = i * S + t := ⟨j - i * S, by omega⟩
          have ht : t < a.length := by omega
          have hg := List.getElem?_eq_getElem ht
          rw [wp_bind, wp_eq (hout t _ hg)]
          have hxn : a[t] < n := List.mem_range.1 (har (List.getElem_mem ht))
          refine (hb.take hxn).mono fun b' hb' => ?_
          rw [show i * S + t + 1 - i * S = t + 1 by omega, List.take_add_one, hg]
          rw [show i * S + t - i * S = t by omega] at hb'
          exact hb'
        · intro b1 hb1
          rw [show i * S + S - 1 - i * S = S - 1 by omega, ← hal, ← List.dropLast_eq_take] at hb1
          rw [wp_bind, wp_eq (hb1.assigned q hqn)]
          have hlast : Wp (lastMember out (i * S + S - 1) q (decide (st.Captured q ∨ q ∈ a.dropLast))) fun p => p < n ∧
              ∀ x, x ∈ a.dropLast ++ [p] ↔ x ∈ seedCluster q a := by
            unfold lastMember
            by_cases hqd : q ∈ a.dropLast
            · rw [if_pos (by simp [hqd])]
              have ht : S - 1 < a.length := by omega
              have hg := List.getElem?_eq_getElem ht
              have hd : i * S + S - 1 = i * S + (S - 1) := by omega
              rw [hd, wp_eq (hout (S - 1) _ hg)]
              refine ⟨List.mem_range.1 (har (List.getElem_mem ht)), fun x => ?_⟩
              have hne : a ≠ [] := List.length_pos_iff.1 (by omega)
              have hgl : a[S - 1] = a.getLast hne := by
                rw [List.getLast_eq_getElem]
                congr 1
                omega
              rw [hgl, List.dropLast_append_getLast hne, mem_seedCluster han]
              constructor
              · exact fun hx => Or.inr (Or.inr ⟨hqd, hx⟩)
              · rintro (hx | rfl | ⟨-, hx⟩)
                · exact List.dropLast_subset _ hx
                · exact List.dropLast_subset _ hqd
                · exact hx
            · rw [if_neg (by simp [hqd, hcap]), wp_some]
              refine ⟨hqn, fun x => ?_⟩
              rw [mem_seedCluster han]
              simp [hqd]
          rw [wp_bind]
          refine hlast.mono fun p ⟨hp1, hp2⟩ => ?_
          rw [wp_bind]
          refine (hb1.take hp1).mono fun b2 hb2 => ?_
          rw [wp_pure]
          refine ⟨by dsimp only; rw [hb2.next]; simp, ?_, hb2.alen, hb2.llen, hb2.room, fun v hv => ?_, fun v hv hor => ?_⟩
          · have := h.cap
            have h6 := h.next
            simp only [List.length_append, List.length_singleton]
            omega
          · rw [hb2.assigned v hv]
            congr 1
            rw [decide_eq_decide, seqCaptured_snoc, hp2]
          · rw [seqCaptured_snoc] at hor
            have := hb2.labels v hv (by rw [hp2]; rcases hor with (h | h) | h <;> simp [h])
            dsimp only
            rw [this, label_snoc hcl]
            simp only [hp2]
            split <;> rfl
    · intro x hx
      have hxa : x ∈ a := List.mem_of_find?_eq_some hx
      have hxc : st.Captured x := by simpa using List.find?_some hx
      have hxn : x < n := List.mem_range.1 (har hxa)
      have hcons : st.consider ig (q, some a) = if ig then st else { st with joined := fun v => if v = q then st.label x else st.joined v } := by
        unfold SeqState.consider
        rw [if_neg (by exact hcap)]
        dsimp only
        rw [hx]
      rw [hcons]
      dsimp only
      cases ig with
      | true =>
        rw [if_neg (by simp), wp_pure]
        simpa using h
      | false =>
        rw [if_pos (by simp), wp_bind, wp_eq (h.labels x hxn (Or.inl hxc)), wp_bind, Buf.wp_set]
        have h1 := h.llen
        have h2 := h.room
        refine ⟨by omega, ?_⟩
        rw [wp_pure]
        simp only [Bool.false_eq_true, ↓reduceIte]
        have hlx : ∀ v, ({ st with joined := fun v => if v = q then st.label x else st.joined v } : SeqState).label v = if v = q then st.label x else st.label v := by
          intro v
          unfold SeqState.label
          dsimp only
          by_cases hvq : v = q
          · subst hvq
            have : st.clusters.findIdx? (fun c => decide (v ∈ c)) = none := by
              rw [captured_iff] at hcap
              simpa using hcap
            rw [this]
            simp
          · simp [hvq]
        refine ⟨h.next, h.cap, h.alen, by simpa using h.llen, h.room, fun v hv => h.assigned v hv, fun v hv hor => ?_⟩
        dsimp only
        rw [hlx]
        by_cases hvq : v = q
        · subst hvq
          rw [Buf.get_upd_self _ _ (by omega), if_pos rfl]
        · rw [Buf.get_upd_ne _ _ hvq, if_neg hvq]
          exact h.labels v hv hor

/-- The answered queries of a batch. -/
theorem batchSteps_spec {cfg : Cfg} {n ll cur S : Nat} {ig : Bool} {okq out : Buf Nat} {res : List (Nat × List Nat)} {st : SeqState} {b : BatchSt} (h : BRep cfg n ll cur st b)
    (hq : ∀ (i : Nat) p, res[i]? = some p → okq.get i = some p.1 ∧ ∀ t x, p.2[t]? = some x → out.get (i * S + t) = some x) (hS : 0 < S)
    (hr : ∀ p ∈ res, p.1 < n ∧ p.1 < cur ∧ p.2.length = S ∧ p.2.Nodup ∧ p.2 ⊆ List.range n) :
    Wp (forLtB 0 res.length b (batchStep cfg S ig okq out)) fun c => match c with
      | .next b' => BRep cfg n ll cur ((res.map fun p => (p.1, some p.2)).foldl (SeqState.consider ig) st) b'
      | .stop b' => cfg.clabelMax < ((res.map fun p => (p.1, some p.2)).foldl (SeqState.consider ig) st).clusters.length ∧ b'.labels.len = ll := by
  refine wp_forLtB (fun i b => BRep cfg n ll cur (((res.take i).map fun p => (p.1, some p.2)).foldl (SeqState.consider ig) st) b)
    (fun b' => cfg.clabelMax < ((res.map fun p => (p.1, some p.2)).foldl (SeqState.consider ig) st).clusters.length ∧ b'.labels.len = ll) (by omega) (by simpa using h) ?_ ?_ ?_
  · intro i b1 _ hi hb
    have hg := List.getElem?_eq_getElem hi
    obtain ⟨h1, h2⟩ := hq i _ hg
    obtain ⟨h3, h4, h5, h6, h7⟩ := hr _ (List.getElem_mem hi)
    refine (batchStep_spec hb h1 h3 h4 hS h5 h6 h7 h2).mono fun c hc => ?_
    have hfold : (((res.take (i + 1)).map fun p => (p.1, some p.2)).foldl (SeqState.consider ig) st) =
        (((res.take i).map fun p => (p.1, some p.2)).foldl (SeqState.consider ig) st).consider ig (res[i].1, some res[i].2) := by
      rw [List.take_add_one, hg, List.map_append, List.foldl_append]
      rfl
    cases c with
    | next b2 => dsimp only at hc ⊢; rw [hfold]; exact hc
    | stop b2 =>
      dsimp only at hc ⊢
      refine ⟨?_, hc.2⟩
      rw [← hfold] at hc
      refine lt_of_lt_of_le hc.1 ?_
      have hsplit : (res.map fun p => (p.1, some p.2)) = ((res.take (i + 1)).map fun p => (p.1, some p.2)) ++ ((res.drop (i + 1)).map fun p => (p.1, some p.2)) := by
        rw [← List.map_append, List.take_append_drop]
      rw [hsplit, List.foldl_append]
      exact length_clusters_foldl _ _ _
  · intro b1 hb
    rw [List.take_length] at hb
    exact hb
  · exact fun b1 hb => hb

/-- The marks for primary points. -/
def PrimaryMarks (n : Nat) (primary : Option (Buf Bool)) (p : Nat → Bool) : Prop :=
  match primary with
  | none => ∀ v, v < n → p v = true
  | some b => ∀ v, v < n → b.get v = some (p v)

/-- The points to be queried among `lo, ..., hi - 1`. -/
def batchQueries (st : SeqState) (p : Nat → Bool) (lo hi : Nat) : List Nat := ((List.range' lo (hi - lo)).filter p).filter fun v => decide (¬ st.Captured v)

theorem batchQueries_succ {st : SeqState} {p : Nat → Bool} {lo i : Nat} (h : lo ≤ i) :
    batchQueries st p lo (i + 1) = batchQueries st p lo i ++ if p i = true ∧ ¬ st.Captured i then [i] else [] := by
  unfold batchQueries
  rw [show i + 1 - lo = (i - lo) + 1 by omega, List.range'_concat, List.filter_append, List.filter_append]
  congr 1
  rw [show lo + 1 * (i - lo) = i by omega]
  by_cases hp : p i = true
  · by_cases hc : st.Captured i <;> simp [hp, hc]
  · simp [hp]

theorem fillBatch_spec {cfg : Cfg} {n ll cur bs : Nat} {primary : Option (Buf Bool)} {p : Nat → Bool} {st : SeqState} {b : BatchSt} {batch : Buf Nat} (h : BRep cfg n ll cur st b)
    (hp : PrimaryMarks n primary p) (hcur : cur < n) (hbs : 0 < bs) (hb : bs ≤ batch.len) (hj : ∀ v, cur ≤ v → st.joined v = none) :
    Wp (fillBatch cfg n bs primary b.assigned cur b.labels batch) fun r => BRep cfg n ll r.2.2.2 st { b with labels := r.1 } ∧ r.2.1.len = batch.len ∧
      cur < r.2.2.2 ∧ r.2.2.2 ≤ n ∧ r.2.2.1 ≤ bs ∧ (r.2.2.1 < bs → r.2.2.2 = n) ∧ (batchQueries st p cur r.2.2.2).length = r.2.2.1 ∧
      ∀ (i x : Nat), (batchQueries st p cur r.2.2.2)[i]? = some x → r.2.1.get i = some x := by
  unfold fillBatch
  rw [wp_bind]
  refine wp_forLtB (fun i (s : Buf Int × Buf Nat × Nat) => BRep cfg n ll i st { b with labels := s.1 } ∧ s.2.1.len = batch.len ∧ s.2.2 ≤ bs ∧
      (batchQueries st p cur i).length = s.2.2 ∧ ∀ (j x : Nat), (batchQueries st p cur i)[j]? = some x → s.2.1.get j = some x)
    (fun r => BRep cfg n ll r.2.2.2 st { b with labels := r.1 } ∧ r.2.1.len = batch.len ∧ cur < r.2.2.2 ∧ r.2.2.2 ≤ n ∧ r.2.2.1 = bs ∧
      (batchQueries st p cur r.2.2.2).length = r.2.2.1 ∧ ∀ (i x : Nat), (batchQueries st p cur r.2.2.2)[i]? = some x → r.2.1.get i = some x) hcur.le ?_ ?_ ?_ ?_
  · exact ⟨h, rfl, Nat.zero_le _, by simp [batchQueries], by simp [batchQueries]⟩
  · rintro i ⟨labels, batch', inb⟩ h1 h2 ⟨h3, h4, h5, h6, h7⟩
    dsimp only at h3 h4 h5 h6 h7 ⊢
    by_cases hin : inb < bs
    · rw [if_pos hin, wp_bind]
      have hlr := h3.llen
      have hrr := h3.room
      dsimp only at hlr
      unfold batchPoint
      rw [wp_bind, wp_eq (h3.assigned i h2)]
      by_cases hcap : st.Captured i
      · rw [if_pos (by simpa using hcap), wp_pure, wp_pure]
        have hq : batchQueries st p cur (i + 1) = batchQueries st p cur i := by rw [batchQueries_succ h1]; simp [hcap]
        dsimp only
        rw [hq]
        refine ⟨⟨h3.next, h3.cap, h3.alen, h3.llen, h3.room, h3.assigned, fun v hv hor => h3.labels v hv ?_⟩, h4, h5, h6, h7⟩
        rcases hor with h8 | h8
        · exact Or.inl h8
        · by_cases hvi : v = i
          · subst hvi; exact Or.inl hcap
          · exact Or.inr (by omega)
      · have hlab : st.label i = none := by
          unfold SeqState.label
          have : st.clusters.findIdx? (fun c => decide (i ∈ c)) = none := by
            rw [captured_iff] at hcap
            simpa using hcap
          rw [this, hj i h1]
          rfl
        have hrep : BRep cfg n ll (i + 1) st { b with labels := labels.upd i cfg.na } := by
          refine ⟨h3.next, h3.cap, h3.alen, by simpa using h3.llen, h3.room, h3.assigned, fun v hv hor => ?_⟩
          dsimp only
          by_cases hvi : v = i
          · subst hvi
            rw [Buf.get_upd_self _ _ (by omega), hlab]
            rfl
          · rw [Buf.get_upd_ne _ _ hvi]
            refine h3.labels v hv ?_
            rcases hor with h8 | h8
            · exact Or.inl h8
            · exact Or.inr (by omega)
        have hput : p i = true → Wp (do let batch ← batch'.set inb i; pure (labels.upd i cfg.na, batch, inb + 1) : Option (Buf Int × Buf Nat × Nat)) fun s =>
            BRep cfg n ll (i + 1) st { b with labels := s.1 } ∧ s.2.1.len = batch.len ∧ s.2.2 ≤ bs ∧
            (batchQueries st p cur (i + 1)).length = s.2.2 ∧ ∀ (j x : Nat), (batchQueries st p cur (i + 1))[j]? = some x → s.2.1.get j = some x := by
          intro hpi
          rw [wp_bind, Buf.wp_set]
          refine ⟨by omega, ?_⟩
          rw [wp_pure]
          have hq : batchQueries st p cur (i + 1) = batchQueries st p cur i ++ [i] := by rw [batchQueries_succ h1, if_pos ⟨hpi, hcap⟩]
          dsimp only
          rw [hq]
          refine ⟨hrep, by simpa using h4, by omega, by simp [h6], fun j x hjx => ?_⟩
          rw [List.getElem?_append] at hjx
          split at hjx
          · rw [Buf.get_upd_ne _ _ (by omega)]
            exact h7 j x hjx
          · rename_i hjl
            have hje : j = inb := by
              have := (List.getElem?_eq_some_iff.1 hjx).1
              simp at this
              omega
            subst hje
            rw [h6] at hjx
            simp at hjx
            subst hjx
            exact Buf.get_upd_self _ _ (by omega)
        rw [if_neg (by simpa using hcap), wp_bind, Buf.wp_set]
        refine ⟨by omega, ?_⟩
        cases primary with
        | none =>
          dsimp only
          refine (hput (hp i h2)).mono fun s hs => ?_
          rw [wp_pure]
          exact hs
        | some pb =>
          dsimp only
          rw [wp_bind, wp_eq (hp i h2)]
          cases hpi : p i with
          | true =>
            rw [if_pos rfl]
            refine (hput hpi).mono fun s hs => ?_
            rw [wp_pure]
            exact hs
          | false =>
            rw [if_neg Bool.false_ne_true, wp_pure, wp_pure]
            have hq : batchQueries st p cur (i + 1) = batchQueries st p cur i := by rw [batchQueries_succ h1]; simp [hpi]
            dsimp only
            rw [hq]
            exact ⟨hrep, h4, h5, h6, h7⟩
    · rw [if_neg hin, wp_pure]
      dsimp only
      have : inb = bs := by omega
      refine ⟨h3, h4, ?_, h2.le, this, h6, h7⟩
      rcases Nat.lt_or_eq_of_le h1 with h8 | rfl
      · exact h8
      · have : (batchQueries st p cur cur).length = 0 := by simp [batchQueries]
        omega
  · rintro ⟨labels, batch', inb⟩ ⟨h3, h4, h5, h6, h7⟩
    dsimp only at h3 h4 h5 h6 h7 ⊢
    rw [wp_pure]
    exact ⟨h3, h4, hcur, le_refl n, h5, fun _ => rfl, h6, h7⟩
  · rintro ⟨labels, batch', inb, i⟩ ⟨h3, h4, h5, h6, h7, h8, h9⟩
    dsimp only at h3 h4 h5 h6 h7 h8 h9 ⊢
    rw [wp_pure]
    exact ⟨h3, h4, h5, h6, h7.le, fun h => absurd h (by show ¬ inb < bs; omega), h8, h9⟩

end Scc
