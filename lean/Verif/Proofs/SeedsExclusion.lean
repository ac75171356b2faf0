/-
The exclusion graph and the exclusion methods.
-/
import Verif.Proofs.SeedsInwards

set_option linter.unusedSimpArgs false
set_option linter.unusedVariables false

namespace Scc

/-! ### The exclusion graph -/

/-- Rows of the exclusion graph: only vertices with arcs have rows. -/
def conflictRows (rows : Nat → List Nat) (n : Nat) (v : Nat) : List Nat :=
  if rows v = [] then [] else unionRows false [rows, productRows true rows (transposeRows rows n)] v

theorem mem_conflictRows {rows : Nat → List Nat} {n v u : Nat} (hr : ∀ v, v < n → ∀ a ∈ rows v, a < n) (hv : v < n) :
    u ∈ conflictRows rows n v ↔ rows v ≠ [] ∧ u < n ∧ Conflict rows v u := by
  unfold conflictRows
  by_cases h0 : rows v = []
  · simp [h0]
  · rw [if_neg h0]
    simp only [unionRows, mem_firstOcc, productRows, List.flatMap_cons, List.flatMap_nil, List.append_nil, List.mem_append, List.mem_flatMap, mem_transposeRows,
      if_true, Bool.false_eq_true, if_false, Conflict, closedNbr, List.mem_cons, List.not_mem_nil, or_false]
    constructor
    · rintro ⟨h1 | ⟨h1, -⟩, h2⟩
      · exact ⟨h0, hr v hv u h1, Ne.symm h2, u, Or.inr h1, Or.inl rfl⟩
      · rcases h1 with ⟨h3, h4⟩ | ⟨x, h3, h4, h5⟩
        · exact ⟨h0, h3, Ne.symm h2, v, Or.inl rfl, Or.inr h4⟩
        · exact ⟨h0, h4, Ne.symm h2, x, Or.inr h3, Or.inr h5⟩
    · rintro ⟨-, h1, h2, x, h3 | h3, h4 | h4⟩
      · exact absurd (h3.symm.trans h4) h2
      · subst h3; exact ⟨Or.inr ⟨Or.inl ⟨h1, h4⟩, Ne.symm h2⟩, Ne.symm h2⟩
      · subst h4; exact ⟨Or.inl h3, Ne.symm h2⟩
      · exact ⟨Or.inr ⟨Or.inr ⟨x, h3, h1, h4⟩, Ne.symm h2⟩, Ne.symm h2⟩

theorem nodup_conflictRows {rows : Nat → List Nat} {n v : Nat} : (conflictRows rows n v).Nodup := by
  unfold conflictRows
  split
  · simp
  · exact nodup_firstOcc

/-- The tails to keep are the vertices with arcs. -/
def KeepArcs (rows : Nat → List Nat) (n : Nat) (keep : Option (List Nat)) : Prop :=
  match keep with
  | none => ∀ v, v < n → rows v ≠ []
  | some ts => ts = (List.range n).filter (fun v => rows v ≠ [])

/-- The exclusion graph or the intermediate product has too many arcs. -/
def ExclBig (cfg : Cfg) (rows : Nat → List Nat) (n : Nat) : Prop :=
  (cfg.arcMax < off (productRows true rows (transposeRows rows n)) n ∨ cfg.sizeMax < off (productRows true rows (transposeRows rows n)) n) ∨
  (cfg.arcMax < off (conflictRows rows n) n ∨ cfg.sizeMax < off (conflictRows rows n) n)

theorem off_le_square {r : Nat → List Nat} {n : Nat} (h : ∀ v, v < n → (r v).Nodup ∧ ∀ a ∈ r v, a < n) : off r n ≤ n * n := by
  have key : ∀ m, m ≤ n → off r m ≤ m * n := by
    intro m
    induction m with
    | zero => intro _; simp [off]
    | succ m ih =>
      intro hm
      have h1 := ih (by omega)
      obtain ⟨h2, h3⟩ := h m (by omega)
      have h4 : (r m).length ≤ n := by
        have := (h2.subperm (l₂ := List.range n) fun a ha => List.mem_range.2 (h3 a ha)).length_le
        simpa using this
      simp only [off]
      rw [Nat.succ_mul]
      omega
  exact key n le_rfl

/-- If the number of pairs of points can be represented then the exclusion graph is not too large. -/
theorem ExclBig.square {cfg : Cfg} {rows : Nat → List Nat} {n : Nat} (hr : ∀ v, v < n → ∀ a ∈ rows v, a < n) (h : ExclBig cfg rows n) : cfg.arcMax < n * n ∨ cfg.sizeMax < n * n := by
  have h1 : off (productRows true rows (transposeRows rows n)) n ≤ n * n := by
    refine off_le_square fun v hv => ⟨nodup_firstOcc, fun a ha => ?_⟩
    simp only [productRows, mem_firstOcc, if_true, List.mem_append, List.mem_flatMap, mem_transposeRows] at ha
    rcases ha.1 with h | ⟨x, -, h⟩
    · exact h.1
    · exact h.1
  have h2 : off (conflictRows rows n) n ≤ n * n := off_le_square fun v hv => ⟨nodup_conflictRows, fun a ha => ((mem_conflictRows hr hv).1 ha).2.1⟩
  rcases h with (h | h) | h | h
  · exact Or.inl (by omega)
  · exact Or.inr (by omega)
  · exact Or.inl (by omega)
  · exact Or.inr (by omega)

/-- What an operation that builds a digraph guarantees, with a given condition for "too large". -/
def BuildPost (cfg : Cfg) (w : World) (n : Nat) (big : Prop) (rows : Nat → List Nat) (r : Except ErrorCode Digraph) (w' : World) : Prop :=
  match r with
  | .error e => ErrPost w big e w'
  | .ok d => w'.fails = w.fails ∧ w'.live = d.own + w.live ∧ d.n = n ∧ d.Repr cfg rows ∧ (w'.err = w.err ∨ w'.err = ErrInfo.none)

theorem exclusionGraph_spec {cfg : Cfg} {nng : Digraph} {rows : Nat → List Nat} {w : World} {keep : Option (List Nat)}
    (h : nng.Repr cfg rows) (hl : ∀ i ∈ nng.ids, i ∈ w.live) (hk : KeepArcs rows nng.n keep) :
    WpM (exclusionGraph cfg nng keep) w (BuildPost cfg w nng.n (ExclBig cfg rows nng.n) (conflictRows rows nng.n)) := by
  unfold exclusionGraph
  rw [wpM_bind]
  refine (digraphTranspose_spec h hl).mono ?_
  rintro (e | tr) w1 h1
  · dsimp only
    rw [wpM_pure]
    refine ⟨h1.fails, h1.live, h1.err, h1.cause.imp (fun hx => ⟨hx.1, ?_⟩) id⟩
    exfalso
    have h2 := h.off_le
    have h3 := h.arcs
    have h4 := h.arcs_size
    have h5 : off (transposeRows rows nng.n) nng.n = off rows nng.n := off_transposeRows h.csr.range
    have h6 := hx.2
    rw [h5] at h6
    omega
  · obtain ⟨a1, a2, a3, a4, a5, a6⟩ := h1
    dsimp only
    rw [wpM_bind]
    have hl1 : ∀ i ∈ nng.ids, i ∈ w1.live := fun i hi => by rw [a2]; exact Multiset.mem_add.2 (Or.inr (hl i hi))
    have ht1 : ∀ i ∈ tr.ids, i ∈ w1.live := fun i hi => by rw [a2]; exact Multiset.mem_add.2 (Or.inl (mem_ids_iff_own.1 hi))
    refine (adjacencyProduct_spec true h a4 a3 hl1 ht1).mono ?_
    rintro (e | prod) w2 h2
    · rw [wpM_bind]
      refine freeDigraph_spec w.live (by rw [h2.live, a2]) fun w3 m1 m2 m3 => ?_
      dsimp only
      rw [wpM_pure]
      refine ⟨by rw [m1, h2.fails, a1], m2, by rw [m3]; exact h2.err, h2.cause.imp (fun hx => ⟨hx.1, Or.inl hx.2⟩) (fun hx => ⟨hx.1, ?_⟩)⟩
      rw [← noFail_congr a1]; exact hx.2
    · obtain ⟨b1, b2, b3, b4, b5, b6⟩ := h2
      rw [wpM_bind]
      refine freeDigraph_spec (prod.own + w.live) (by rw [b2, a2]; abel) fun w3 m1 m2 m3 => ?_
      dsimp only
      rw [wpM_bind]
      refine (unionAndDelete_spec (cfg := cfg) (n := nng.n) (rowss := [rows, productRows true rows (transposeRows rows nng.n)]) false (by simp)
        (List.Forall₂.cons ⟨h, rfl⟩ (List.Forall₂.cons ⟨b4, b3⟩ List.Forall₂.nil)) ?_ ?_).mono ?_
      · intro ts hts
        subst hts
        unfold KeepArcs at hk
        dsimp only at hk
        subst hk
        exact ⟨List.pairwise_lt_range.filter _, fun t ht => by simpa using (List.mem_filter.1 ht).1⟩
      · intro d hd i hi
        rw [m2]
        rcases List.mem_cons.1 hd with rfl | hd
        · exact Multiset.mem_add.2 (Or.inr (hl i hi))
        · simp only [List.mem_singleton] at hd; subst hd
          exact Multiset.mem_add.2 (Or.inl (mem_ids_iff_own.1 hi))
      · have hrows : ∀ v, v < nng.n → unionKeptRows false [rows, productRows true rows (transposeRows rows nng.n)] keep v = conflictRows rows nng.n v := by
          intro v hv
          unfold unionKeptRows conflictRows
          unfold KeepArcs at hk
          cases keep with
          | none => rw [if_neg (hk v hv)]; simp [keepTail]
          | some ts =>
            dsimp only at hk
            subst hk
            by_cases h0 : rows v = []
            · simp [keepTail, h0]
            · simp [keepTail, h0, hv]
        rintro (e | d) w4 h4
        · rw [wpM_bind]
          refine freeDigraph_spec w.live (by rw [h4.live, m2]) fun w5 p1 p2 p3 => ?_
          dsimp only
          rw [wpM_pure]
          refine ⟨by rw [p1, h4.fails, m1, b1, a1], p2, by rw [p3]; exact h4.err, h4.cause.imp (fun hx => ⟨hx.1, Or.inr ?_⟩) (fun hx => ⟨hx.1, ?_⟩)⟩
          · rw [← off_congr hrows]; exact hx.2
          · rw [← noFail_congr (show w3.fails = w.fails by rw [m1, b1, a1])]; exact hx.2
        · obtain ⟨c1, c2, c3, c4, c5, c6⟩ := h4
          rw [wpM_bind]
          refine freeDigraph_spec (d.own + w.live) (by rw [c2, m2]; abel) fun w5 p1 p2 p3 => ?_
          dsimp only
          rw [wpM_pure]
          refine ⟨by rw [p1, c1, m1, b1, a1], p2, c3, c4.congr (by rw [c3]; exact hrows), ?_⟩
          rw [p3]
          rcases c6 with c6 | c6
          · rw [c6, m3]
            rcases b6 with b6 | b6
            · rw [b6]; exact a6
            · exact Or.inr b6
          · exact Or.inr c6

/-! ### Flags -/

/-- `ne` flags exactly the vertices that can still be added to the seeds. -/
structure NEOK (n : Nat) (rows : Nat → List Nat) (S : List Nat) (ne : Buf Bool) : Prop where
  len : ne.len = n
  get : ∀ x, x < n → ne.get x = some (decide (CanAdd rows S x))

theorem canAdd_nil {rows : Nat → List Nat} {x : Nat} : CanAdd rows [] x ↔ rows x ≠ [] := by simp [CanAdd]

theorem canAdd_snoc {rows : Nat → List Nat} {S : List Nat} {v x : Nat} :
    CanAdd rows (S ++ [v]) x ↔ CanAdd rows S x ∧ ∀ y ∈ closedNbr rows x, y ∉ closedNbr rows v := by
  unfold CanAdd
  simp only [List.mem_append, List.mem_singleton]
  constructor
  · rintro ⟨h1, h2⟩
    exact ⟨⟨h1, fun s hs => h2 s (Or.inl hs)⟩, h2 v (Or.inr rfl)⟩
  · rintro ⟨⟨h1, h2⟩, h3⟩
    refine ⟨h1, fun s hs => ?_⟩
    rcases hs with hs | rfl
    · exact h2 s hs
    · exact h3

theorem canAdd_snoc_conflict {rows : Nat → List Nat} {n : Nat} {S : List Nat} {v x : Nat} (hr : ∀ v, v < n → ∀ a ∈ rows v, a < n) (hv : v < n) (hx : x < n)
    (hadd : rows v ≠ []) : CanAdd rows (S ++ [v]) x ↔ CanAdd rows S x ∧ x ≠ v ∧ x ∉ conflictRows rows n v := by
  rw [canAdd_snoc, mem_conflictRows hr hv]
  unfold Conflict
  constructor
  · rintro ⟨h1, h2⟩
    refine ⟨h1, ?_, ?_⟩
    · rintro rfl; exact h2 x (by simp [closedNbr]) (by simp [closedNbr])
    · rintro ⟨-, -, -, y, h3, h4⟩; exact h2 y h4 h3
  · rintro ⟨h1, h2, h3⟩
    refine ⟨h1, fun y h4 h5 => h3 ⟨hadd, hx, Ne.symm h2, y, h5, h4⟩⟩

theorem notExcludedK_spec {n : Nat} {head tail : Buf Nat} {rows : Nat → List Nat} {ne : Buf Bool} {idx : Buf Nat} (hc : Csr n head tail rows)
    (hn : ne.len = n) (hi : idx.len = n) :
    Wp (notExcludedK n tail ne idx) (fun r => NEOK n rows [] r.1 ∧ r.2.1.read r.2.2 = some ((List.range n).filter (fun v => rows v ≠ [])) ∧
      r.2.2 = ((List.range n).filter (fun v => rows v ≠ [])).length) := by
  unfold notExcludedK
  refine wp_forLt (fun i (r : Buf Bool × Buf Nat × Nat) => r.1.len = n ∧ r.2.1.len = n ∧ (∀ x, x < i → r.1.get x = some (decide (rows x ≠ []))) ∧
      Pre r.2.1 ((List.range i).filter (fun v => rows v ≠ [])) ∧ r.2.2 = ((List.range i).filter (fun v => rows v ≠ [])).length)
    (Nat.zero_le _) ⟨hn, hi, by simp, by simpa using Pre.nil idx, by simp⟩ ?_ ?_
  · rintro i ⟨ne', idx', k⟩ _ hin ⟨h1, h2, h3, h4, h5⟩
    dsimp only at h1 h2 h3 h4 h5 ⊢
    have hk : k ≤ i := by
      have := List.length_filter_le (fun v => decide (rows v ≠ [])) (List.range i)
      rw [List.length_range] at this; omega
    rw [wp_bind, wp_eq (hc.tail_get i (by omega)), wp_bind, wp_eq (hc.tail_get (i + 1) (by omega)), wp_bind, Buf.wp_set]
    refine ⟨by omega, ?_⟩
    rw [wp_bind, Buf.wp_set]
    refine ⟨by omega, ?_⟩
    rw [wp_pure]
    have hne : off rows i ≠ off rows (i + 1) ↔ rows i ≠ [] := by
      show off rows i ≠ off rows i + (rows i).length ↔ _
      rw [← List.length_pos_iff]; omega
    have hsn := Pre.snoc (a := i) h4 (by omega)
    rw [← h5] at hsn
    rw [List.range_succ, List.filter_append]
    refine ⟨by simpa using h1, by simpa using h2, fun x hx => ?_, ?_, ?_⟩
    · by_cases hxi : x = i
      · subst hxi
        rw [Buf.get_upd_self _ _ (by omega)]
        simp only [Option.some.injEq, decide_eq_decide]; exact hne
      · rw [Buf.get_upd_ne _ _ hxi]; exact h3 x (by omega)
    · by_cases h0 : rows i = []
      · have := hsn.left
        simpa [h0] using this
      · simpa [h0] using hsn
    · by_cases h0 : rows i = []
      · rw [if_neg (by rw [hne]; simp [h0])]; simp [h0, h5]
      · rw [if_pos (hne.2 h0)]; simp [h0, h5]
  · rintro ⟨ne', idx', k⟩ ⟨h1, h2, h3, h4, h5⟩
    dsimp only at h1 h2 h3 h4 h5 ⊢
    refine ⟨⟨h1, fun x hx => ?_⟩, ?_, h5⟩
    · rw [h3 x hx]; simp only [Option.some.injEq, decide_eq_decide]; exact canAdd_nil.symm
    · rw [h5]; exact h4.read

section
variable {n : Nat} {head tail : Buf Nat} {rows E G : Nat → List Nat} {S : List Nat} {ne : Buf Bool}

theorem excludeRow_spec (hr : ∀ v, v < n → ∀ a ∈ rows v, a < n) (hc : Csr n head tail G) {v : Nat} (hv : v < n) (hadd : rows v ≠ [])
    (hG : G v = conflictRows rows n v) (hne : ne.len = n) (hg : ∀ x, x < n → ne.get x = some (decide (CanAdd rows S x ∧ x ≠ v))) :
    Wp (excludeRow head tail v ne) (NEOK n rows (S ++ [v])) := by
  unfold excludeRow
  rw [rowLoop_eq hc hv]
  refine (wp_foldlM (fun pre (b : Buf Bool) => b.len = n ∧ ∀ x, x < n → b.get x = some (decide ((CanAdd rows S x ∧ x ≠ v) ∧ x ∉ pre))) (G v) ne ⟨hne, by simpa using hg⟩ ?_).mono ?_
  · rintro pre a post b hsplit ⟨h1, h2⟩
    have ha := hc.range v hv a (by simp [hsplit])
    rw [Buf.wp_set]
    refine ⟨by omega, by simpa using h1, fun x hx => ?_⟩
    by_cases hxa : x = a
    · subst hxa; rw [Buf.get_upd_self _ _ (by omega)]; simp
    · rw [Buf.get_upd_ne _ _ hxa, h2 x hx]; simp [hxa]
  · rintro b ⟨h1, h2⟩
    refine ⟨h1, fun x hx => ?_⟩
    rw [h2 x hx]
    simp only [Option.some.injEq, decide_eq_decide]
    rw [canAdd_snoc_conflict hr hv hx hadd, hG, and_assoc]

/-- The first pass of the updating variant. -/
theorem excludeRecord_spec (hc : Csr n head tail G) {v : Nat} (hv : v < n) (hnd : (G v).Nodup) (P : Nat → Prop) [DecidablePred P]
    (hne : ne.len = n) (hg : ∀ x, x < n → ne.get x = some (decide (P x))) :
    Wp (excludeRecord head tail v ne) (fun r => r.1.len = n ∧ (∀ x, x < n → r.1.get x = some (decide (P x ∧ x ∉ G v))) ∧
      r.2.2.1 = off G v ∧ r.2.2.2 = off G v + ((G v).filter (fun a => P a)).length ∧
      (∀ j a, ((G v).filter (fun a => P a))[j]? = some a → r.2.1.get (off G v + j) = some a) ∧
      ∃ row, Csr n r.2.1 tail (fun u => if u = v then row else G u)) := by
  unfold excludeRecord
  rw [wp_bind, wp_eq (hc.tail_get v (by omega)), wp_bind, wp_eq (hc.tail_get (v + 1) (by omega)), wp_bind]
  have hoff : off G (v + 1) = off G v + (G v).length := rfl
  refine wp_forNe (fun i (r : Buf Bool × Buf Nat × Nat) => ∃ j, i = off G v + j ∧ j ≤ (G v).length ∧
      r.1.len = n ∧ (∀ x, x < n → r.1.get x = some (decide (P x ∧ x ∉ (G v).take j))) ∧
      r.2.2 = off G v + (((G v).take j).filter (fun a => P a)).length ∧ r.2.1.len = head.len ∧
      ∃ row : List Nat, row.length = (G v).length ∧ (∀ a ∈ row, a < n) ∧ (∀ (k a : Nat), row[k]? = some a → r.2.1.get (off G v + k) = some a) ∧
        (∀ k, k < off G v ∨ off G v + (G v).length ≤ k → r.2.1.get k = head.get k) ∧
        (∀ (k a : Nat), (((G v).take j).filter (fun a => P a))[k]? = some a → row[k]? = some a) ∧ (∀ k : Nat, j ≤ k → row[k]? = (G v)[k]?))
    (by omega) ?_ ?_ ?_
  · refine ⟨0, rfl, Nat.zero_le _, hne, by simpa using hg, by simp, rfl, G v, rfl, fun a ha => hc.range v hv a ha, fun k a hk => hc.head_get v hv k a hk, fun k _ => rfl, by simp, fun k _ => rfl⟩
  · rintro i ⟨ne', head', wr⟩ _ hlt ⟨j, rfl, hj, h1, h2, h3, h4, row, r1, r2, r3, r4, r5, r6⟩
    dsimp only at h1 h2 h3 h4 r3 r4 ⊢
    have hjl : j < (G v).length := by omega
    obtain ⟨a, ha⟩ : ∃ a, (G v)[j]? = some a := ⟨_, List.getElem?_eq_getElem hjl⟩
    have har : row[j]? = some a := by rw [r6 j le_rfl, ha]
    have han : a < n := r2 a (List.mem_of_getElem? har)
    have htake : (G v).take (j + 1) = (G v).take j ++ [a] := by rw [List.take_succ, ha]; rfl
    have hnot : a ∉ (G v).take j := by
      have : ((G v).take (j + 1)).Nodup := hnd.sublist (List.take_sublist _ _)
      rw [htake, List.nodup_append] at this
      intro hx; exact this.2.2 a hx a (by simp) rfl
    have hwl : (((G v).take j).filter (fun a => P a)).length ≤ j := by
      have := List.length_filter_le (fun a => decide (P a)) ((G v).take j)
      rw [List.length_take] at this; omega
    rw [wp_bind, wp_eq (r3 j a har), wp_bind, wp_eq (h2 a han)]
    have hflags : ∀ x, x < n → (ne'.upd a false).get x = some (decide (P x ∧ x ∉ (G v).take (j + 1))) := by
      intro x hx
      by_cases hxa : x = a
      · subst hxa; rw [Buf.get_upd_self _ _ (by omega), htake]; simp
      · rw [Buf.get_upd_ne _ _ hxa, h2 x hx, htake]; simp [hxa]
    by_cases hP : P a
    · rw [if_pos (by simpa using ⟨hP, hnot⟩), wp_bind, Buf.wp_set]
      have hlast : off G v + j < head'.len := by
        have := r3 j a har; exact Buf.lt_of_get this
      refine ⟨by omega, ?_⟩
      have hreread : (head'.upd wr a).get (off G v + j) = some a := by
        by_cases hwj : off G v + j = wr
        · rw [← hwj, Buf.get_upd_self _ _ hlast]
        · rw [Buf.get_upd_ne _ _ hwj, r3 j a har]
      rw [wp_bind, wp_eq hreread, wp_bind, Buf.wp_set]
      refine ⟨by omega, ?_⟩
      rw [wp_pure]
      have hfil : ((G v).take (j + 1)).filter (fun a => decide (P a)) = ((G v).take j).filter (fun a => decide (P a)) ++ [a] := by
        rw [htake, List.filter_append]; simp [hP]
      generalize hW : (((G v).take j).filter (fun a => decide (P a))) = W at h3 r5 hwl hfil
      refine ⟨j + 1, by omega, hjl, by simpa using h1, hflags, ?_, by simpa using h4, row.set W.length a, by simpa using r1, ?_, ?_, ?_, ?_, ?_⟩
      · rw [hfil]; simp; omega
      · intro b hb
        rcases List.mem_or_eq_of_mem_set hb with hb | rfl
        · exact r2 b hb
        · exact han
      · intro k b hk
        by_cases hkw : k = W.length
        · subst hkw
          rw [List.getElem?_set_self (by omega)] at hk
          rw [h3, Buf.get_upd_self _ _ (by omega)]; exact hk
        · rw [List.getElem?_set_ne (Ne.symm hkw)] at hk
          rw [Buf.get_upd_ne _ _ (by omega)]; exact r3 k b hk
      · intro k hk
        rw [Buf.get_upd_ne _ _ (by omega)]; exact r4 k hk
      · intro k b hk
        rw [hfil] at hk
        by_cases hkw : k = W.length
        · subst hkw
          rw [List.getElem?_set_self (by omega)]
          simpa using hk
        · have hkl : k < W.length := by
            by_contra hx
            rw [List.getElem?_eq_none (by simp; omega)] at hk; simp at hk
          rw [List.getElem?_append_left hkl] at hk
          rw [List.getElem?_set_ne (Ne.symm hkw)]; exact r5 k b hk
      · intro k hk
        rw [List.getElem?_set_ne (by omega)]; exact r6 k (by omega)
    · rw [if_neg (by simp [hP]), wp_bind, Buf.wp_set]
      refine ⟨by omega, ?_⟩
      rw [wp_pure]
      have hfil : ((G v).take (j + 1)).filter (fun a => decide (P a)) = ((G v).take j).filter (fun a => decide (P a)) := by
        rw [htake, List.filter_append]; simp [hP]
      refine ⟨j + 1, by omega, hjl, by simpa using h1, hflags, by rw [hfil]; exact h3, h4, row, r1, r2, r3, r4, by rw [hfil]; exact r5, fun k hk => r6 k (by omega)⟩
  · rintro ⟨ne', head', wr⟩ ⟨j, hj1, hj, h1, h2, h3, h4, row, r1, r2, r3, r4, r5, r6⟩
    dsimp only at h1 h2 h3 h4 r3 r4 ⊢
    have : j = (G v).length := by omega
    subst this
    rw [List.take_length] at h2 h3 r5
    rw [wp_pure]
    refine ⟨h1, h2, rfl, h3, fun k a hk => r3 k a (r5 k a hk), row, ?_⟩
    have hoffs : ∀ u, off (fun u => if u = v then row else G u) u = off G u := by
      intro u
      induction u with
      | zero => rfl
      | succ u ih =>
        show off _ u + _ = off G u + _
        rw [ih]
        by_cases huv : u = v
        · subst huv; simp [r1]
        · simp [huv]
    refine ⟨fun u hu => by rw [hoffs]; exact hc.tail_get u hu, fun u hu k a hk => ?_, fun u hu a ha => ?_⟩
    · rw [hoffs]
      by_cases huv : u = v
      · subst huv; simp only [if_true] at hk; exact r3 k a hk
      · simp only [huv, if_false] at hk
        rw [r4 _ ?_]
        · exact hc.head_get u hu k a hk
        · have hkl : k < (G u).length := by
            by_contra hx
            rw [List.getElem?_eq_none (by omega)] at hk; simp at hk
          rcases Nat.lt_or_gt_of_ne huv with h | h
          · have h5 := off_mono (rows := G) (show u + 1 ≤ v by omega)
            have h6 : off G (u + 1) = off G u + (G u).length := rfl
            left; omega
          · have h5 := off_mono (rows := G) (show v + 1 ≤ u by omega)
            right; omega
    · by_cases huv : u = v
      · subst huv; simp only [if_true] at ha; exact r2 a ha
      · simp only [huv, if_false] at ha; exact hc.range u hu a ha

end

end Scc
