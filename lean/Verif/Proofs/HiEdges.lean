/-
Edge lists of the hierarchical clustering: sorting, and walking through the lists while skipping assigned points.
-/
import Verif.Spec.HiTree
import Verif.Proofs.DigraphLemmas

namespace Scc

variable {F : Type} [FloatOps F]

/-! ### Chains of `next_dist` pointers -/

/-- The pointers lead from `p` through the positions of the list and then to NULL. -/
def Chain (next : Buf (Option Nat)) : Nat → List Nat → Prop
  | p, [] => next.get p = some none
  | p, q :: qs => next.get p = some (some q) ∧ p < q ∧ Chain next q qs

theorem Chain.lt {next : Buf (Option Nat)} {p : Nat} {qs : List Nat} (h : Chain next p qs) : p < next.len := by
  cases qs with
  | nil => exact Buf.lt_of_get h
  | cons q qs => exact Buf.lt_of_get h.1

theorem Chain.length {next : Buf (Option Nat)} {p : Nat} {qs : List Nat} (h : Chain next p qs) : p + qs.length < next.len := by
  induction qs generalizing p with
  | nil => exact h.lt
  | cons q qs ih => have := ih h.2.2; have := h.2.1; simp; omega

theorem Chain.congr {next next' : Buf (Option Nat)} {p : Nat} {qs : List Nat} (h : Chain next p qs) (he : ∀ x, p ≤ x → next'.get x = next.get x) : Chain next' p qs := by
  induction qs generalizing p with
  | nil => exact (he p le_rfl).trans h
  | cons q qs ih => exact ⟨(he p le_rfl).trans h.1, h.2.1, ih h.2.2 fun x hx => he x (by have := h.2.1; omega)⟩

/-- The end of a list that starts after `p`. -/
def lastOf (p : Nat) : List Nat → Nat
  | [] => p
  | q :: qs => lastOf q qs

theorem lastOf_append (p : Nat) (a : List Nat) (q : Nat) : lastOf p (a ++ [q]) = q := by
  induction a generalizing p with
  | nil => rfl
  | cons x a ih => exact ih x

theorem lastOf_mem (p : Nat) (a : List Nat) (h : a ≠ []) : lastOf p a ∈ a := by
  obtain ⟨b, q, rfl⟩ : ∃ b q, a = b ++ [q] := ⟨_, _, (List.dropLast_append_getLast h).symm⟩
  rw [lastOf_append]; simp

theorem Chain.suffix {next : Buf (Option Nat)} {p : Nat} {a b : List Nat} (h : Chain next p (a ++ b)) : Chain next (lastOf p a) b := by
  induction a generalizing p with
  | nil => exact h
  | cons x a ih => exact ih h.2.2

theorem Chain.le_lastOf {next : Buf (Option Nat)} {p : Nat} {a b : List Nat} (h : Chain next p (a ++ b)) : p ≤ lastOf p a := by
  induction a generalizing p with
  | nil => exact le_rfl
  | cons x a ih => exact h.2.1.le.trans (ih h.2.2)

/-- Changing the pointer at the end of a part of the chain. -/
theorem Chain.replace {next next' : Buf (Option Nat)} {p : Nat} {a b c : List Nat} (h : Chain next p (a ++ b)) (hc : Chain next' (lastOf p a) c)
    (he : ∀ x, x ≠ lastOf p a → next'.get x = next.get x) : Chain next' p (a ++ c) := by
  induction a generalizing p with
  | nil => exact hc
  | cons x a ih =>
    refine ⟨?_, h.2.1, ih h.2.2 hc he⟩
    rw [he p]
    · exact h.1
    · have := Chain.le_lastOf h.2.2
      have := h.2.1
      simp only [lastOf]; omega

/-! ### Walking through a list -/

/-- The head of the edge at position `q`. -/
def edgeHead (edges : Buf (Nat × F)) (q : Nat) : Nat := ((edges.get q).map Prod.fst).getD 0

omit [FloatOps F] in
theorem edgeHead_eq {edges : Buf (Nat × F)} {q : Nat} {e : Nat × F} (h : edges.get q = some e) : edgeHead edges q = e.1 := by simp [edgeHead, h]

/-- The points of `X` that are not in `U` have the marker. -/
def MarkedExcept (marks : Buf Nat) (marker : Nat) (X U : List Nat) : Prop := ∀ x ∈ X, ∃ m, marks.get x = some m ∧ (m ≠ marker ↔ x ∈ U)

omit [FloatOps F] in
theorem nextDist_spec {edges : Buf (Nat × F)} {marks : Buf Nat} {marker prev : Nat} {X U : List Nat} (hm : MarkedExcept marks marker X U) (fuel : Nat) (next : Buf (Option Nat))
    (qs : List Nat) (hc : Chain next prev qs) (he : ∀ q ∈ qs, ∃ e, edges.get q = some e ∧ e.1 ∈ X) (hu : ∃ q ∈ qs, edgeHead edges q ∈ U) (hf : qs.length ≤ fuel) :
    Wp (nextDist edges marks marker prev fuel next) fun r => ∃ del rest, qs = del ++ r.1 :: rest ∧ (∀ q ∈ del, edgeHead edges q ∉ U) ∧ edgeHead edges r.1 ∈ U ∧
      r.2.len = next.len ∧ Chain r.2 prev (r.1 :: rest) ∧ ∀ x, x ≠ prev → r.2.get x = next.get x := by
  induction fuel generalizing next qs with
  | zero =>
    obtain ⟨q, hq, -⟩ := hu
    have := List.length_pos_of_mem hq
    omega
  | succ fuel ih =>
    unfold nextDist
    cases qs with
    | nil => obtain ⟨q, hq, -⟩ := hu; cases hq
    | cons q qs =>
      obtain ⟨h1, h2, h3⟩ := hc
      obtain ⟨e, he1, he2⟩ := he q (by simp)
      obtain ⟨m, hm1, hm2⟩ := hm _ he2
      rw [wp_bind, wp_eq h1, wp_bind, wp_eq rfl, wp_bind, wp_eq he1, wp_bind, wp_eq hm1]
      by_cases hmm : m = marker
      · rw [if_pos hmm]
        have hnot : edgeHead edges q ∉ U := by rw [edgeHead_eq he1]; intro hin; exact hm2.2 hin hmm
        have hp : prev < next.len := Buf.lt_of_get h1
        have hgo : ∀ v, next.get q = some v → (∀ qs', qs = qs' → True) → Wp (do
            let q ← next.get q
            let next ← next.set prev q
            nextDist edges marks marker prev fuel next) (fun r => ∃ del rest, q :: qs = del ++ r.1 :: rest ∧ (∀ q ∈ del, edgeHead edges q ∉ U) ∧ edgeHead edges r.1 ∈ U ∧
              r.2.len = next.len ∧ Chain r.2 prev (r.1 :: rest) ∧ ∀ x, x ≠ prev → r.2.get x = next.get x) := by
          intro v hv _
          rw [wp_bind, wp_eq hv, wp_bind, Buf.wp_set]
          refine ⟨hp, ?_⟩
          have hchain : Chain (next.upd prev v) prev qs := by
            cases qs with
            | nil =>
              have : next.get q = some none := h3
              rw [this] at hv; cases hv
              exact Buf.get_upd_self _ _ hp
            | cons q' qs =>
              rw [h3.1] at hv; cases hv
              refine ⟨Buf.get_upd_self _ _ hp, h2.trans h3.2.1, h3.2.2.congr fun x hx => Buf.get_upd_ne _ _ (by have := h3.2.1; omega)⟩
          refine (ih (next.upd prev v) qs hchain (fun q hq => he q (List.mem_cons_of_mem _ hq)) ?_ (by simpa using hf)).mono ?_
          · obtain ⟨q', hq', hu'⟩ := hu
            rw [List.mem_cons] at hq'
            rcases hq' with rfl | hq'
            · exact absurd hu' hnot
            · exact ⟨q', hq', hu'⟩
          · rintro ⟨t, nx⟩ ⟨del, rest, rfl, g1, g2, g3, g4, g5⟩
            refine ⟨q :: del, rest, rfl, ?_, g2, g3, g4, fun x hx => ?_⟩
            · intro y hy
              rw [List.mem_cons] at hy
              rcases hy with rfl | hy
              · exact hnot
              · exact g1 y hy
            · rw [g5 x hx, Buf.get_upd_ne _ _ hx]
        cases qs with
        | nil => exact hgo none h3 (fun _ _ => trivial)
        | cons q' qs => exact hgo (some q') h3.1 (fun _ _ => trivial)
      · rw [if_neg hmm, wp_pure]
        exact ⟨[], qs, rfl, by simp, by rw [edgeHead_eq he1]; exact hm2.1 hmm, rfl, ⟨h1, h2, h3⟩, fun _ _ => rfl⟩

/-- The points are in the order of their distances (which are numbers). -/
def Ordered (d : Nat → F) (l : List Nat) : Prop := l.Pairwise (fun x y => FloatOps.le (d x) (d y) = true) ∧ ∀ x ∈ l, FloatOps.le (d x) (d x) = true

theorem Ordered.sublist {d : Nat → F} {l l' : List Nat} (h : Ordered d l) (hs : l'.Sublist l) : Ordered d l' := ⟨h.1.sublist hs, fun x hx => h.2 x (hs.subset hx)⟩

/-- The last point is the farthest. -/
theorem Ordered.last {d : Nat → F} {l : List Nat} {a : Nat} (h : Ordered d (l ++ [a])) : Outermost d (l ++ [a]) a := by
  refine ⟨by simp, fun x hx => ?_⟩
  rw [List.mem_append, List.mem_singleton] at hx
  rcases hx with hx | rfl
  · exact (List.pairwise_append.1 h.1).2.2 x hx a (by simp)
  · exact h.2 x (by simp)

/-- The chain from `last` contains the edges to all points of `U`, each once, in the order of their lengths. The length of an edge to `x` is `d x`. -/
def EdgeInv (edges : Buf (Nat × F)) (d : Nat → F) (X : List Nat) (next : Buf (Option Nat)) (last : Nat) (U : List Nat) : Prop :=
  next.len = edges.len ∧ ∃ qs, Chain next last qs ∧ (∀ q ∈ qs, ∃ e, edges.get q = some e ∧ e.1 ∈ X ∧ e.2 = d e.1) ∧ ((qs.map (edgeHead edges)).filter fun x => decide (x ∈ U)).Perm U ∧
    Ordered d (qs.map (edgeHead edges))

theorem EdgeInv.mono {edges : Buf (Nat × F)} {d : Nat → F} {X : List Nat} {next : Buf (Option Nat)} {last : Nat} {U V : List Nat} (h : EdgeInv edges d X next last U) (hn : U.Nodup)
    (hv : V.Nodup) (hs : V ⊆ U) : EdgeInv edges d X next last V := by
  obtain ⟨h0, qs, h1, h2, h3, ho⟩ := h
  refine ⟨h0, qs, h1, h2, ?_, ho⟩
  have h4 := h3.filter fun x => decide (x ∈ V)
  rw [List.filter_filter] at h4
  have h5 : ((qs.map (edgeHead edges)).filter fun a => decide (a ∈ V) && decide (a ∈ U)) = (qs.map (edgeHead edges)).filter fun a => decide (a ∈ V) := by
    apply List.filter_congr
    intro x _
    by_cases hx : x ∈ V
    · simp [hx, hs hx]
    · simp [hx]
  rw [h5] at h4
  refine h4.trans ((List.perm_ext_iff_of_nodup (hn.filter _) hv).2 fun x => ?_)
  rw [List.mem_filter, decide_eq_true_eq]
  exact ⟨fun h => h.2, fun h => ⟨hs h, h⟩⟩

theorem nextKnn_spec {edges : Buf (Nat × F)} {d : Nat → F} {marks : Buf Nat} {marker last k : Nat} {X U : List Nat} {next : Buf (Option Nat)} {out : Buf Nat} (hm : MarkedExcept marks marker X U)
    (hn : U.Nodup) (hinv : EdgeInv edges d X next last U) (hk : k ≤ U.length) (ho : k ≤ out.len) :
    Wp (nextKnn edges marks marker last k next out) fun r => ∃ xs V, Takes d U k xs V ∧ r.2.2.len = out.len ∧ (∀ i x, xs[i]? = some x → r.2.2.get i = some x) ∧
      EdgeInv edges d X r.2.1 last U ∧ EdgeInv edges d X r.2.1 r.1 V ∧ (0 < k → ∃ e, edges.get r.1 = some e ∧ e.1 ∈ U ∧ e.2 = d e.1 ∧ Outermost d xs e.1) := by
  obtain ⟨h0, qs, h1, h2, h3, hord⟩ := hinv
  unfold nextKnn
  refine wp_forLt (fun i st => ∃ ts rest, ts.length = i ∧ st.1 = lastOf last ts ∧ st.2.1.len = edges.len ∧ Chain st.2.1 last (ts ++ rest) ∧
      (∀ t ∈ ts, edgeHead edges t ∈ U) ∧ (∀ q ∈ ts ++ rest, ∃ e, edges.get q = some e ∧ e.1 ∈ X ∧ e.2 = d e.1) ∧
      ((ts ++ rest).map (edgeHead edges)).filter (fun x => decide (x ∈ U)) = (qs.map (edgeHead edges)).filter (fun x => decide (x ∈ U)) ∧
      Ordered d ((ts ++ rest).map (edgeHead edges)) ∧ st.2.2.len = out.len ∧ ∀ (j t : Nat), ts[j]? = some t → st.2.2.get j = some (edgeHead edges t)) (Nat.zero_le _) ?_ ?_ ?_
  · exact ⟨[], qs, rfl, rfl, h0, h1, by simp, h2, rfl, hord, rfl, by simp⟩
  · rintro i ⟨prev, nx, o⟩ - hi ⟨ts, rest, g1, g2, g3, g4, g5, g6, g7, go, g8, g9⟩
    dsimp only at g2 g3 g4 g8 g9 ⊢
    subst g2
    have hsuf := g4.suffix
    have hexists : ∃ q ∈ rest, edgeHead edges q ∈ U := by
      by_contra hcon
      push Not at hcon
      have e1 : (rest.map (edgeHead edges)).filter (fun x => decide (x ∈ U)) = [] := by
        rw [List.filter_eq_nil_iff]
        intro x hx
        rw [List.mem_map] at hx
        obtain ⟨q, hq, rfl⟩ := hx
        simpa using hcon q hq
      have e2 : ((ts ++ rest).map (edgeHead edges)).filter (fun x => decide (x ∈ U)) = (ts.map (edgeHead edges)).filter (fun x => decide (x ∈ U)) := by
        rw [List.map_append, List.filter_append, e1, List.append_nil]
      rw [e2] at g7
      have e3 := h3.length_eq
      rw [← g7] at e3
      have e4 := List.length_filter_le (fun x => decide (x ∈ U)) (ts.map (edgeHead edges))
      rw [e3, List.length_map] at e4
      omega
    have hfuel : rest.length ≤ edges.len := by
      have := hsuf.length
      omega
    rw [wp_bind]
    refine (nextDist_spec hm edges.len nx rest hsuf (fun q hq => by obtain ⟨e, h, h', -⟩ := g6 q (List.mem_append_right _ hq); exact ⟨e, h, h'⟩) hexists hfuel).mono ?_
    rintro ⟨t, nx'⟩ ⟨del, rest', rfl, k1, k2, k3, k4, k5⟩
    dsimp only at k2 k3 k4 k5 ⊢
    obtain ⟨e, he1, he2, -⟩ := g6 t (by simp)
    rw [wp_bind, wp_eq he1, wp_bind, Buf.wp_set, wp_pure]
    refine ⟨by omega, ts ++ [t], rest', by simp [g1], (lastOf_append _ _ _).symm, k3.trans g3, ?_, ?_, ?_, ?_, ?_, g8, ?_⟩
    · dsimp only
      rw [List.append_assoc]; exact g4.replace k4 k5
    · intro x hx
      rw [List.mem_append, List.mem_singleton] at hx
      rcases hx with hx | rfl
      · exact g5 x hx
      · exact k2
    · intro q hq
      apply g6 q
      simp only [List.mem_append, List.mem_cons, List.not_mem_nil, or_false] at hq ⊢
      rcases hq with (hq | hq) | hq
      · exact Or.inl hq
      · exact Or.inr (Or.inr (Or.inl hq))
      · exact Or.inr (Or.inr (Or.inr hq))
    · rw [← g7]
      have e1 : (del.map (edgeHead edges)).filter (fun x => decide (x ∈ U)) = [] := by
        rw [List.filter_eq_nil_iff]
        intro x hx
        rw [List.mem_map] at hx
        obtain ⟨q, hq, rfl⟩ := hx
        simpa using k1 q hq
      rw [List.append_assoc, List.singleton_append, List.map_append, List.filter_append, List.map_append, List.filter_append, List.map_append, List.filter_append, e1, List.nil_append]
    · refine go.sublist (List.Sublist.map _ ?_)
      rw [List.append_assoc, List.singleton_append]
      exact (List.sublist_append_right _ _).append_left _
    · intro j x hj
      dsimp only
      by_cases hji : j = i
      · subst hji
        rw [List.getElem?_append_right (by omega)] at hj
        simp [g1] at hj
        subst hj
        rw [Buf.get_upd_self _ _ (by omega), edgeHead_eq he1]
      · rw [Buf.get_upd_ne _ _ hji]
        refine g9 j x ?_
        rcases Nat.lt_or_ge j ts.length with hlt | hge
        · rwa [List.getElem?_append_left hlt] at hj
        · rw [List.getElem?_append_right hge, List.getElem?_eq_none (by simp; omega)] at hj; cases hj
  · rintro ⟨prev, nx, o⟩ ⟨ts, rest, g1, g2, g3, g4, g5, g6, g7, go, g8, g9⟩
    dsimp only at g2 g3 g4 g8 g9 ⊢
    subst g2
    have hts : (ts.map (edgeHead edges)).filter (fun x => decide (x ∈ U)) = ts.map (edgeHead edges) := by
      rw [List.filter_eq_self]
      intro x hx
      rw [List.mem_map] at hx
      obtain ⟨q, hq, rfl⟩ := hx
      simpa using g5 q hq
    have hp : U.Perm (ts.map (edgeHead edges) ++ (rest.map (edgeHead edges)).filter fun x => decide (x ∈ U)) := by
      rw [← g7, List.map_append, List.filter_append, hts] at h3
      exact h3.symm
    have hrest := go.sublist (List.Sublist.map (edgeHead edges) (List.sublist_append_right ts rest))
    have htake : Takes d U k (ts.map (edgeHead edges)) ((rest.map (edgeHead edges)).filter fun x => decide (x ∈ U)) := by
      refine ⟨hp, by simpa using g1, fun x hx y hy => ?_⟩
      have := go.1
      rw [List.map_append] at this
      exact (List.pairwise_append.1 this).2.2 x hx y (List.mem_of_mem_filter hy)
    refine ⟨ts.map (edgeHead edges), _, htake, g8, ?_, ⟨g3, ts ++ rest, g4, g6, by rw [g7]; exact h3, go⟩, ⟨g3, rest, g4.suffix, fun q hq => g6 q (List.mem_append_right _ hq), ?_, hrest⟩, ?_⟩
    · intro i x hx
      rw [List.getElem?_map, Option.map_eq_some_iff] at hx
      obtain ⟨t, ht, rfl⟩ := hx
      exact g9 i t ht
    · have : (rest.map (edgeHead edges)).filter (fun x => decide (x ∈ (rest.map (edgeHead edges)).filter fun x => decide (x ∈ U))) =
          (rest.map (edgeHead edges)).filter fun x => decide (x ∈ U) := by
        apply List.filter_congr
        intro x hx
        simp only [List.mem_filter, hx, true_and, decide_eq_true_eq]
      rw [this]
    · intro hk0
      have hne : ts ≠ [] := by rintro rfl; simp at g1; omega
      have hmem := lastOf_mem last ts hne
      obtain ⟨e, he, -, hd⟩ := g6 _ (List.mem_append_left _ hmem)
      refine ⟨e, he, by rw [← edgeHead_eq he]; exact g5 _ hmem, hd, ?_⟩
      obtain ⟨t', q, rfl⟩ : ∃ b q, ts = b ++ [q] := ⟨_, _, (List.dropLast_append_getLast hne).symm⟩
      rw [lastOf_append] at he
      have := go.sublist (List.Sublist.map (edgeHead edges) (List.sublist_append_left (t' ++ [q]) rest))
      rw [List.map_append, List.map_singleton, edgeHead_eq he] at this ⊢
      exact this.last

/-! ### Sorting -/

theorem Buf.get_drop' {α : Type} (b : Buf α) (o i : Nat) : (b.drop o).get i = b.get (o + i) := by
  unfold Buf.drop Buf.get
  by_cases h : o + i < b.len
  · rw [if_pos h, if_pos (by simp only; omega)]
  · rw [if_neg h, if_neg (by simp only; omega)]

theorem chain_range {next : Buf (Option Nat)} (k p : Nat) (h1 : ∀ j, j < k → next.get (p + j) = some (some (p + j + 1))) (h2 : next.get (p + k) = some none) :
    Chain next p (List.range' (p + 1) k) := by
  induction k generalizing p with
  | zero => exact h2
  | succ k ih =>
    rw [List.range'_succ]
    refine ⟨h1 0 (by omega), by omega, ih (p + 1) (fun j hj => ?_) ?_⟩
    · have := h1 (j + 1) (by omega)
      rwa [show p + (j + 1) = p + 1 + j by omega] at this
    · rwa [show p + (k + 1) = p + 1 + k by omega] at h2

theorem DistLaws.refl {n : Nat} {dist : Nat → Nat → F} (hd : DistLaws n dist) {p q : Nat} (hp : p < n) (hq : q < n) : FloatOps.le (dist p q) (dist p q) = true :=
  (hd.order.total _ _ (hd.num p q hp hq) (hd.num p q hp hq)).elim id id

theorem DistLaws.le_of_not_lt {n : Nat} {dist : Nat → Nat → F} (hd : DistLaws n dist) {p x y : Nat} (hp : p < n) (hx : x < n) (hy : y < n) (h : FloatOps.lt (dist p y) (dist p x) = false) :
    FloatOps.le (dist p x) (dist p y) = true := by
  have := hd.order.lt_iff _ _ (hd.num p y hp hy) (hd.num p x hp hx)
  cases h1 : FloatOps.le (dist p x) (dist p y) <;> simp_all

theorem DistLaws.sortable {n : Nat} {dist : Nat → Nat → F} (hd : DistLaws n dist) {c : Nat} (hc : c < n) {L : List Nat} (hL : ∀ x ∈ L, x < n) :
    Sortable (L.map fun x => (x, dist c x)) := by
  have hnum : ∀ a ∈ L.map (fun x => (x, dist c x)), IsNum a.2 := by
    intro a ha
    rw [List.mem_map] at ha
    obtain ⟨x, hx, rfl⟩ := ha
    exact hd.num c x hc (hL x hx)
  have hle : ∀ a ∈ L.map (fun x => (x, dist c x)), ∀ b ∈ L.map (fun x => (x, dist c x)), (FloatOps.lt b.2 a.2 = false ↔ FloatOps.le a.2 b.2 = true) := by
    intro a ha b hb
    have := hd.order.lt_iff b.2 a.2 (hnum b hb) (hnum a ha)
    cases h1 : FloatOps.lt b.2 a.2 <;> cases h2 : FloatOps.le a.2 b.2 <;> simp_all
  intro a ha b hb
  refine ⟨fun h => ?_, fun c hc h1 h2 => ?_⟩
  · rcases hd.order.total a.2 b.2 (hnum a ha) (hnum b hb) with h' | h'
    · rw [← hle a ha b hb, h.2] at h'; cases h'
    · rw [← hle b hb a ha, h.1] at h'; cases h'
  · rw [hle a ha b hb] at h1
    rw [hle b hb c hc] at h2
    rw [hle a ha c hc]
    exact hd.order.trans _ _ _ h1 h2

theorem filter_ne_length {X : List Nat} {c : Nat} (hX : X.Nodup) (hc : c ∈ X) : (X.filter fun x => decide (x ≠ c)).length = X.length - 1 := by
  have h1 : X.filter (fun x => decide (x ≠ c)) = X.erase c := by
    rw [hX.erase_eq_filter]
    apply List.filter_congr
    intro x _
    by_cases h : x = c <;> simp [h]
  rw [h1, List.length_erase_of_mem hc]

theorem sortEdges_spec {n : Nat} {dist : Nat → Nat → F} (hd : DistLaws n dist) {hi : HiEnv F} (hhi : hi.Ok) {store : Buf Nat} {off center r : Nat} {X : List Nat} {dists : Buf F}
    {edges : Buf (Nat × F)} (hX : X.Nodup) (hXn : ∀ x ∈ X, x < n) (hc : center ∈ X) (hs : ∀ (i x : Nat), X[i]? = some x → store.get (off + i) = some x)
    (hdist : ∀ (i x : Nat), X[i]? = some x → dists.get (r * X.length + i) = some (dist center x)) (hlen : X.length ≤ edges.len) :
    Wp (sortEdges hi store off X.length center dists r edges) fun res => res.1.len = edges.len ∧
      EdgeInv res.1 (dist center) X res.2 0 (X.filter fun x => decide (x ≠ center)) := by
  have hpos : 0 < X.length := List.length_pos_of_mem hc
  have hL := filter_ne_length hX hc
  set L := X.filter fun x => decide (x ≠ center) with hLd
  unfold sortEdges
  rw [wp_bind]
  refine wp_forLt (fun i st => st.1.len = edges.len ∧ st.2 = 1 + ((X.take i).filter fun x => decide (x ≠ center)).length ∧
      ∀ (j x : Nat), ((X.take i).filter fun x => decide (x ≠ center))[j]? = some x → st.1.get (1 + j) = some (x, dist center x)) (Nat.zero_le _) ?_ ?_ ?_
  · exact ⟨rfl, rfl, by simp⟩
  · rintro i ⟨e, w⟩ - hi' ⟨h1, h2, h3⟩
    dsimp only at h1 h2 h3 ⊢
    have hx := List.getElem?_eq_getElem hi'
    have htake : X.take (i + 1) = X.take i ++ [X[i]] := List.take_succ_eq_append_getElem hi'
    rw [wp_bind, wp_eq (hs i _ hx)]
    by_cases hxc : X[i] = center
    · rw [if_pos hxc, wp_pure]
      have : (X.take (i + 1)).filter (fun x => decide (x ≠ center)) = (X.take i).filter fun x => decide (x ≠ center) := by
        rw [htake, List.filter_append, List.filter_cons_of_neg (by simp [hxc])]; simp
      rw [this]
      exact ⟨h1, h2, h3⟩
    · rw [if_neg hxc, wp_bind, wp_eq (hdist i _ hx), wp_bind, Buf.wp_set, wp_pure]
      have hfil : (X.take (i + 1)).filter (fun x => decide (x ≠ center)) = ((X.take i).filter fun x => decide (x ≠ center)) ++ [X[i]] := by
        rw [htake, List.filter_append, List.filter_cons_of_pos (by simpa using hxc)]; simp
      have hle : ((X.take (i + 1)).filter fun x => decide (x ≠ center)).length ≤ L.length := ((List.take_sublist (i + 1) X).filter _).length_le
      rw [hfil, List.length_append, List.length_singleton] at hle
      refine ⟨by omega, h1, ?_, ?_⟩
      · dsimp only; rw [hfil, List.length_append, List.length_singleton, h2]; omega
      · intro j x hj
        rw [hfil] at hj
        dsimp only
        rcases Nat.lt_trichotomy j ((X.take i).filter fun x => decide (x ≠ center)).length with hlt | heq | hgt
        · rw [List.getElem?_append_left hlt] at hj
          rw [Buf.get_upd_ne _ _ (by omega)]
          exact h3 j x hj
        · rw [List.getElem?_append_right heq.ge, heq] at hj
          simp at hj
          subst hj
          rw [h2, heq, Buf.get_upd_self _ _ (by omega)]
        · rw [List.getElem?_eq_none (by rw [List.length_append, List.length_singleton]; omega)] at hj; cases hj
  · rintro ⟨e, w⟩ ⟨h1, -, h3⟩
    dsimp only at h1 h3 ⊢
    rw [List.take_length, ← hLd] at h3
    have hread : (e.drop 1).read (X.length - 1) = some (L.map fun x => (x, dist center x)) := by
      rw [Buf.read_eq_some]
      refine ⟨by simpa using hL, fun i hi' => ?_⟩
      rw [Buf.get_drop', List.getElem?_map, List.getElem?_eq_getElem (by omega)]
      exact h3 i _ (List.getElem?_eq_getElem (by omega))
    have hLn : ∀ x ∈ L, x < n := fun x hx => hXn x (List.mem_of_mem_filter hx)
    have hsort := hd.sortable (hXn _ hc) hLn
    obtain ⟨hperm, hsorted⟩ := hhi.sorts _ hsort
    rw [wp_bind, wp_eq hread, wp_bind, sortList, if_pos hsort, wp_some]
    set Sd := hi.qsort (L.map fun x => (x, dist center x)) with hSd
    have hSl : Sd.length = X.length - 1 := by rw [hperm.length_eq, List.length_map, hL]
    rw [wp_bind]
    refine wp_forLt (fun i b => b.len = edges.len ∧ ∀ j, j < i → b.get (1 + j) = Sd[j]?) (Nat.zero_le _) ⟨h1, by omega⟩ ?_ ?_
    · rintro i b - hi' ⟨g1, g2⟩
      rw [wp_bind, wp_eq (List.getElem?_eq_getElem (by omega)), Buf.wp_set]
      refine ⟨by omega, g1, fun j hj => ?_⟩
      by_cases hji : j = i
      · subst hji; rw [Buf.get_upd_self _ _ (by omega), List.getElem?_eq_getElem (by omega)]
      · rw [Buf.get_upd_ne _ _ (by omega)]; exact g2 j (by omega)
    · rintro b ⟨g1, g2⟩
      rw [wp_bind]
      refine wp_forNe (fun i (nx : Buf (Option Nat)) => nx.len = b.len ∧ ∀ j, j < i → nx.get j = some (some (j + 1))) (Nat.zero_le _) ⟨rfl, by omega⟩ ?_ ?_
      · rintro i nx - hi' ⟨k1, k2⟩
        rw [Buf.wp_set]
        refine ⟨by omega, k1, fun j hj => ?_⟩
        by_cases hji : j = i
        · subst hji; rw [Buf.get_upd_self _ _ (by omega)]
        · rw [Buf.get_upd_ne _ _ (by omega)]; exact k2 j (by omega)
      · rintro nx ⟨k1, k2⟩
        rw [wp_bind, Buf.wp_set, wp_pure]
        refine ⟨by omega, g1, k1, List.range' (0 + 1) (X.length - 1), chain_range _ _ (fun j hj => ?_) ?_, ?_, ?_⟩
        rotate_right
        · have hmap : (List.range' (0 + 1) (X.length - 1)).map (edgeHead b) = Sd.map Prod.fst := by
            apply List.ext_getElem
            · simp [hSl]
            · intro i h1' h2'
              simp only [List.length_map, List.length_range'] at h1'
              rw [List.getElem_map, List.getElem_map, List.getElem_range']
              rw [edgeHead_eq (e := Sd[i]'(by omega))]
              rw [show 0 + 1 + 1 * i = 1 + i by omega, g2 i (by omega), List.getElem?_eq_getElem (by omega)]
          dsimp only
          rw [hmap]
          have hSdm : ∀ a ∈ Sd, a.1 < n ∧ a.2 = dist center a.1 := by
            intro a ha
            have := hperm.mem_iff.1 ha
            rw [List.mem_map] at this
            obtain ⟨x, hx, rfl⟩ := this
            exact ⟨hLn x hx, rfl⟩
          have hpf : (Sd.map Prod.fst).Perm L := by
            refine (hperm.map Prod.fst).trans ?_
            rw [List.map_map]
            have : (Prod.fst ∘ fun x => (x, dist center x)) = (fun x : Nat => x) := rfl
            rw [this, List.map_id']
          refine ⟨(hpf.filter _).trans ?_, List.pairwise_map.2 (hsorted.imp_of_mem fun {a b} ha hb hab => ?_), fun x hx => ?_⟩
          · rw [List.filter_eq_self.2 fun x hx => by simpa using hx]
          · obtain ⟨ha1, ha2⟩ := hSdm a ha
            obtain ⟨hb1, hb2⟩ := hSdm b hb
            rw [ha2, hb2] at hab
            exact hd.le_of_not_lt (hXn _ hc) ha1 hb1 hab
          · rw [List.mem_map] at hx
            obtain ⟨a, ha, rfl⟩ := hx
            exact hd.refl (hXn _ hc) (hSdm a ha).1
        · dsimp only
          rw [Nat.zero_add, Buf.get_upd_ne _ _ (by omega)]; exact k2 j hj
        · dsimp only
          rw [Nat.zero_add]; exact Buf.get_upd_self _ _ (by omega)
        · intro q hq
          rw [List.mem_range'_1] at hq
          have := g2 (q - 1) (by omega)
          rw [show 1 + (q - 1) = q by omega, List.getElem?_eq_getElem (by omega)] at this
          refine ⟨_, this, ?_⟩
          have hm := hperm.mem_iff.1 (List.getElem_mem (l := Sd) (n := q - 1) (by omega))
          rw [List.mem_map] at hm
          obtain ⟨x, hx, hx'⟩ := hm
          rw [← hx']
          exact ⟨List.mem_of_mem_filter hx, rfl⟩

end Scc
