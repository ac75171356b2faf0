/-
Greedy seeds, adding seeds, marks, and the lexical method.
-/
import Verif.Spec.Seeds
import Verif.Proofs.DigraphM
import Mathlib.Data.List.Induction

set_option linter.unusedSimpArgs false
set_option linter.unusedVariables false

namespace Scc

/-! ### Greedy seeds -/

theorem greedySeeds_snoc (rows : Nat → List Nat) (l : List Nat) (v : Nat) :
    greedySeeds rows (l ++ [v]) = if CanAdd rows (greedySeeds rows l) v then greedySeeds rows l ++ [v] else greedySeeds rows l := by
  unfold greedySeeds; rw [List.foldl_append]; rfl

theorem greedySeeds_sublist (rows : Nat → List Nat) (l : List Nat) : List.Sublist (greedySeeds rows l) l := by
  induction l using List.reverseRecOn with
  | nil => exact List.Sublist.refl _
  | append_singleton l v ih =>
    rw [greedySeeds_snoc]
    split
    · exact List.Sublist.append ih (List.Sublist.refl _)
    · exact ih.trans (List.sublist_append_left _ _)

theorem greedySeeds_arcs {rows : Nat → List Nat} {l : List Nat} : ∀ s ∈ greedySeeds rows l, rows s ≠ [] := by
  induction l using List.reverseRecOn with
  | nil => simp [greedySeeds]
  | append_singleton l v ih =>
    rw [greedySeeds_snoc]
    split
    · rename_i h
      intro s hs
      rcases List.mem_append.1 hs with hs | hs
      · exact ih s hs
      · simp at hs; subst hs; exact h.1
    · exact ih

theorem greedySeeds_disjoint {rows : Nat → List Nat} {l : List Nat} :
    (greedySeeds rows l).Pairwise (fun a b => ∀ x, x ∈ closedNbr rows a → x ∉ closedNbr rows b) := by
  induction l using List.reverseRecOn with
  | nil => simp [greedySeeds]
  | append_singleton l v ih =>
    rw [greedySeeds_snoc]
    split
    · rename_i h
      rw [List.pairwise_append]
      refine ⟨ih, by simp, fun a ha b hb x hx => ?_⟩
      simp at hb; subst hb
      exact fun hc => h.2 a ha x hc hx
    · exact ih

theorem greedySeeds_mono {rows : Nat → List Nat} {l m : List Nat} : ∀ s ∈ greedySeeds rows l, s ∈ greedySeeds rows (l ++ m) := by
  induction m using List.reverseRecOn with
  | nil => simp
  | append_singleton m v ih =>
    intro s hs
    rw [← List.append_assoc, greedySeeds_snoc]
    split
    · exact List.mem_append_left _ (ih s hs)
    · exact ih s hs

theorem greedySeeds_maximal {rows : Nat → List Nat} {l : List Nat} : ∀ v ∈ l, rows v ≠ [] →
    ∃ s ∈ greedySeeds rows l, ∃ x ∈ closedNbr rows v, x ∈ closedNbr rows s := by
  induction l using List.reverseRecOn with
  | nil => simp
  | append_singleton l u ih =>
    intro v hv hne
    rcases List.mem_append.1 hv with hv | hv
    · obtain ⟨s, hs, h⟩ := ih v hv hne
      exact ⟨s, greedySeeds_mono s hs, h⟩
    · simp at hv; subst hv
      by_cases h : CanAdd rows (greedySeeds rows l) v
      · refine ⟨v, ?_, v, by simp [closedNbr], by simp [closedNbr]⟩
        rw [greedySeeds_snoc, if_pos h]; simp
      · unfold CanAdd at h
        push Not at h
        obtain ⟨s, hs, x, hx, hxs⟩ := h hne
        exact ⟨s, greedySeeds_mono s hs, x, hx, hxs⟩

theorem greedySeeds_ne_nil {rows : Nat → List Nat} {l : List Nat} {v : Nat} (hv : v ∈ l) (hne : rows v ≠ []) : greedySeeds rows l ≠ [] := by
  obtain ⟨s, hs, -⟩ := greedySeeds_maximal v hv hne
  exact List.ne_nil_of_mem hs

/-! ### Adding a seed -/

/-- How adding seeds can fail. -/
def SeedErr (w : World) (big : Prop) (e : ErrorCode) (w' : World) : Prop :=
  w'.err.code = e ∧ (e = .tooLarge ∧ big ∨ e = .noMemory ∧ ¬ w.NoFail)

theorem addSeed_spec {cfg : Cfg} {v : Nat} {sr : SeedResult} {S : List Nat} {w : World} {L : Multiset Nat}
    (h : sr.Holds S) (hc : S.length ≤ cfg.clabelMax) (hl : w.live = ptrOwn sr.seeds + L) :
    WpM (addSeed cfg v sr) w (fun r w' => w'.fails = w.fails ∧ w'.live = ptrOwn r.2.seeds + L ∧
      (r.1 = .ok ∧ r.2.Holds (S ++ [v]) ∧ (S ++ [v]).length ≤ cfg.clabelMax ∧ w'.err = w.err ∨ r.1 ≠ .ok ∧ SeedErr w (cfg.clabelMax ≤ S.length) r.1 w')) := by
  obtain ⟨b, hb, hbl, hbg⟩ := h.block
  unfold addSeed
  split
  · rename_i h0
    rw [wpM_bind]
    refine wpM_mkErr fun w1 k1 k2 k3 => ?_
    rw [wpM_pure]
    exact ⟨k1, k2.trans hl, Or.inr ⟨by simp, by rw [k3], Or.inl ⟨rfl, by rw [← h.count]; omega⟩⟩⟩
  · rename_i h0
    rw [h.count] at h0
    rw [wpM_bind]
    have grow : WpM (growSeeds cfg sr) w (fun r w' => w'.fails = w.fails ∧ w'.live = ptrOwn r.2.seeds + L ∧
        (r.1 = .ok ∧ r.2.Holds S ∧ S.length < r.2.capacity ∧ w'.err = w.err ∨ r.1 ≠ .ok ∧ SeedErr w (cfg.clabelMax ≤ S.length) r.1 w')) := by
      unfold growSeeds
      split
      · rename_i hcap
        rw [h.count] at hcap
        rw [wpM_bind, hb]
        unfold reallocHead
        refine wpM_realloc L (by rw [hl, hb]; rfl) (by omega) (fun w1 hn k1 k2 k3 => ?_) (fun i w1 k1 k2 k3 => ?_)
        · dsimp only
          rw [wpM_bind]
          refine wpM_mkErr fun w2 l1 l2 l3 => ?_
          rw [wpM_pure]
          refine ⟨by rw [l1, k1], by rw [l2, k2, hl, hb], Or.inr ⟨by simp, by rw [l3], Or.inr ⟨rfl, hn⟩⟩⟩
        · dsimp only
          rw [wpM_pure]
          have hcl : S.length < min (sr.capacity + sr.capacity / 8 + 1024) cfg.clabelMax := by
            rw [Nat.lt_min]; omega
          refine ⟨k1, k2, Or.inl ⟨rfl, ⟨h.count, hcl.le, _, rfl, rfl, ?_⟩, hcl, k3⟩⟩
          intro j a hj
          have hjl : j < S.length := by
            by_contra hx; rw [List.getElem?_eq_none (by omega)] at hj; simp at hj
          simp only [Buf.get_resize]
          rw [if_pos (by omega)]; exact hbg j a hj
      · rename_i hcap
        rw [h.count] at hcap
        rw [wpM_pure]
        exact ⟨rfl, hl, Or.inl ⟨rfl, h, by show S.length < sr.capacity; have := h.cap; omega, rfl⟩⟩
    refine grow.mono ?_
    rintro ⟨ec, sr1⟩ w1 ⟨k1, k2, k3⟩
    dsimp only at k2 k3 ⊢
    rcases k3 with ⟨rfl, hS, hlt, herr⟩ | ⟨hne, hse⟩
    · simp only [ne_eq, not_true, if_false]
      obtain ⟨b1, hb1, hbl1, hbg1⟩ := hS.block
      rw [wpM_bind, wpM_useK, hb1]
      refine ⟨by simp [ptrIds, k2, hb1], ?_⟩
      simp only [ptrBuf]
      rw [Buf.wp_set, hS.count]
      refine ⟨by omega, ?_⟩
      rw [wpM_pure]
      refine ⟨k1, by simpa [hb1, ptrSet] using k2, Or.inl ⟨rfl, ⟨?_, ?_, _, rfl, ?_, ?_⟩, ?_, herr⟩⟩
      · simp [hS.count]
      · simp only [List.length_append, List.length_singleton]; exact hlt
      · simpa using hbl1
      · intro j a hj
        exact Pre.snoc (b := b1.buf) hbg1 (by omega) j a hj
      · simp; omega
    · rw [if_pos hne, wpM_pure]
      exact ⟨k1, k2, Or.inr ⟨hne, hse⟩⟩

/-! ### Marks -/

/-- `marks` flags exactly the vertices captured by the seeds `S`. -/
structure MarksOK (n : Nat) (rows : Nat → List Nat) (S : List Nat) (marks : Buf Bool) : Prop where
  len : marks.len = n
  get : ∀ x, x < n → marks.get x = some (decide (Captured rows S x))

section
variable {n : Nat} {head tail : Buf Nat} {rows : Nat → List Nat} {S : List Nat} {marks : Buf Bool}

theorem checkMarks_spec (hc : Csr n head tail rows) (hm : MarksOK n rows S marks) {v : Nat} (hv : v < n) :
    checkMarks head tail v marks = some (decide (CanAdd rows S v)) := by
  have key : Wp (checkMarks head tail v marks) (fun r => r = decide (CanAdd rows S v)) := by
    unfold checkMarks
    rw [wp_bind, wp_eq (hm.get v hv)]
    by_cases hcap : Captured rows S v
    · rw [if_pos (by simpa using hcap), wp_pure]
      symm; rw [decide_eq_false_iff_not]
      rintro ⟨-, h⟩
      obtain ⟨s, hs, hx⟩ := hcap
      exact h s hs v (by simp [closedNbr]) hx
    · rw [if_neg (by simpa using hcap), wp_bind, wp_eq (hc.tail_get v (by omega)), wp_bind, wp_eq (hc.tail_get (v + 1) (by omega))]
      rw [show off rows (v + 1) = off rows v + (rows v).length from rfl]
      by_cases h0 : rows v = []
      · rw [if_pos (by simp [h0]), wp_pure]
        symm; rw [decide_eq_false_iff_not]
        exact fun h => h.1 h0
      · have hpos : 0 < (rows v).length := List.length_pos_iff.2 h0
        rw [if_neg (by omega), if_neg (by omega), wp_bind]
        refine wp_forLtB (fun i _ => ∀ j a, (rows v)[j]? = some a → off rows v + j < i → ¬ Captured rows S a) (fun _ => ¬ CanAdd rows S v)
          (by omega) (fun j a _ h => by omega) ?_ ?_ ?_
        · rintro i - h1 h2 hi
          obtain ⟨j, rfl⟩ : ∃ j, i = off rows v + j := ⟨i - off rows v, by omega⟩
          have hj : j < (rows v).length := by omega
          have hg := hc.head_get v hv j _ (List.getElem?_eq_getElem hj)
          have hlt := hc.range v hv _ (List.getElem_mem hj)
          rw [wp_bind, wp_eq hg, wp_bind, wp_eq (hm.get _ hlt)]
          by_cases hcj : Captured rows S (rows v)[j]
          · rw [if_pos (by simpa using hcj), wp_pure]
            dsimp only
            rintro ⟨-, h⟩
            obtain ⟨s, hs, hx⟩ := hcj
            exact h s hs _ (by simp [closedNbr]) hx
          · rw [if_neg (by simpa using hcj), wp_pure]
            dsimp only
            intro k a hk hlt
            by_cases hkj : k = j
            · subst hkj; rw [List.getElem?_eq_getElem hj] at hk; simp at hk; subst hk; exact hcj
            · exact hi k a hk (by omega)
        · rintro - hi
          dsimp only
          rw [wp_pure]
          symm; rw [decide_eq_true_iff]
          refine ⟨h0, fun s hs x hx hxs => ?_⟩
          rcases List.mem_cons.1 hx with rfl | hx
          · exact hcap ⟨s, hs, hxs⟩
          · obtain ⟨j, hj, rfl⟩ := List.getElem_of_mem hx
            exact hi j _ (List.getElem?_eq_getElem hj) (by omega) ⟨s, hs, hxs⟩
        · rintro - hr
          dsimp only
          rw [wp_pure]
          symm; rw [decide_eq_false_iff_not]; exact hr
  obtain ⟨a, h1, rfl⟩ := key
  exact h1

theorem captured_snoc {v x : Nat} : Captured rows (S ++ [v]) x ↔ Captured rows S x ∨ x ∈ closedNbr rows v := by
  unfold Captured
  constructor
  · rintro ⟨s, hs, hx⟩
    rcases List.mem_append.1 hs with hs | hs
    · exact Or.inl ⟨s, hs, hx⟩
    · simp at hs; subst hs; exact Or.inr hx
  · rintro (⟨s, hs, hx⟩ | hx)
    · exact ⟨s, List.mem_append_left _ hs, hx⟩
    · exact ⟨v, by simp, hx⟩

theorem markNeighbors_spec (hc : Csr n head tail rows) (hm : MarksOK n rows S marks) {v : Nat} (hv : v < n) :
    Wp (markNeighbors head tail v marks) (MarksOK n rows (S ++ [v])) := by
  unfold markNeighbors
  rw [wp_bind, rowLoop_eq hc hv]
  refine (wp_foldlM (fun pre (m : Buf Bool) => m.len = n ∧ ∀ x, x < n → m.get x = some (decide (Captured rows S x ∨ x ∈ pre))) (rows v) marks
    ⟨hm.len, fun x hx => by simpa using hm.get x hx⟩ ?_).mono ?_
  · rintro pre a post m hsplit ⟨h1, h2⟩
    have ha : a < n := hc.range v hv a (by simp [hsplit])
    rw [Buf.wp_set]
    refine ⟨by omega, by simpa using h1, fun x hx => ?_⟩
    by_cases hxa : x = a
    · subst hxa; rw [Buf.get_upd_self _ _ (by omega)]; simp
    · rw [Buf.get_upd_ne _ _ hxa, h2 x hx]; simp [hxa]
  · rintro m ⟨h1, h2⟩
    rw [Buf.wp_set]
    refine ⟨by omega, by simpa using h1, fun x hx => ?_⟩
    by_cases hxa : x = v
    · subst hxa; rw [Buf.get_upd_self _ _ (by omega)]
      simp only [Option.some.injEq]
      symm; rw [decide_eq_true_iff, captured_snoc]; right; simp [closedNbr]
    · rw [Buf.get_upd_ne _ _ hxa, h2 x hx]
      simp only [Option.some.injEq]
      congr 1
      rw [captured_snoc]; simp [closedNbr, hxa]

theorem marksOK_init : MarksOK n rows [] (Buf.fill n false) :=
  ⟨rfl, fun x hx => by simp [hx, Captured]⟩

end

/-! ### The state of the seeds in the main loops -/

/-- State of the seeds after the vertices `pre` were considered; `L` are the other live blocks. -/
structure SeedInv (cfg : Cfg) (w0 : World) (L : Multiset Nat) (rows : Nat → List Nat) (pre : List Nat) (sr : SeedResult) (w : World) : Prop where
  fails : w.fails = w0.fails
  live : w.live = ptrOwn sr.seeds + L
  err : w.err = w0.err ∨ w.err = ErrInfo.none
  holds : sr.Holds (greedySeeds rows pre)
  cap : (greedySeeds rows pre).length ≤ cfg.clabelMax

/-- State of the seeds when a main loop is left because of an error. -/
def SeedStop (w0 : World) (L : Multiset Nat) (big : Prop) (r : ErrorCode × SeedResult) (w : World) : Prop :=
  w.fails = w0.fails ∧ w.live = ptrOwn r.2.seeds + L ∧ SeedErr w0 big r.1 w

theorem noFail_congr {w w' : World} (h : w'.fails = w.fails) : w'.NoFail ↔ w.NoFail := by
  unfold World.NoFail; rw [h]

theorem SeedInv.mem_live {cfg : Cfg} {w0 w : World} {L : Multiset Nat} {rows : Nat → List Nat} {pre : List Nat} {sr : SeedResult}
    (h : SeedInv cfg w0 L rows pre sr w) {l : List Nat} (hl : ∀ i ∈ l, i ∈ L) : ∀ i ∈ l, i ∈ w.live := by
  intro i hi
  rw [h.live]; exact Multiset.mem_add.2 (Or.inr (hl i hi))

theorem SeedInv.skip {cfg : Cfg} {w0 w : World} {L : Multiset Nat} {rows : Nat → List Nat} {pre : List Nat} {sr : SeedResult} {v : Nat}
    (h : SeedInv cfg w0 L rows pre sr w) (hv : ¬ CanAdd rows (greedySeeds rows pre) v) : SeedInv cfg w0 L rows (pre ++ [v]) sr w := by
  have hg : greedySeeds rows (pre ++ [v]) = greedySeeds rows pre := by rw [greedySeeds_snoc, if_neg hv]
  exact ⟨h.fails, h.live, h.err, hg ▸ h.holds, hg ▸ h.cap⟩

theorem SeedInv.add {cfg : Cfg} {w0 w : World} {L : Multiset Nat} {rows : Nat → List Nat} {pre : List Nat} {sr : SeedResult} {v n : Nat}
    (h : SeedInv cfg w0 L rows pre sr w) (hv : CanAdd rows (greedySeeds rows pre) v) (hn : pre.length < n) :
    WpM (addSeed cfg v sr) w (fun r w' => r.1 = .ok ∧ SeedInv cfg w0 L rows (pre ++ [v]) r.2 w' ∨
      r.1 ≠ .ok ∧ SeedStop w0 L (cfg.clabelMax < n) r w') := by
  refine (addSeed_spec (v := v) h.holds h.cap h.live).mono ?_
  rintro ⟨ec, sr'⟩ w' ⟨h1, h2, h3⟩
  rcases h3 with ⟨a1, a2, a3, a4⟩ | ⟨a1, a2, a3⟩
  · left
    have hg : greedySeeds rows (pre ++ [v]) = greedySeeds rows pre ++ [v] := by rw [greedySeeds_snoc, if_pos hv]
    exact ⟨a1, h1.trans h.fails, h2, by rw [a4]; exact h.err, hg ▸ a2, hg ▸ a3⟩
  · right
    refine ⟨a1, h1.trans h.fails, h2, a2, ?_⟩
    rcases a3 with ⟨b1, b2⟩ | ⟨b1, b2⟩
    · have := (greedySeeds_sublist rows pre).length_le
      exact Or.inl ⟨b1, by omega⟩
    · exact Or.inr ⟨b1, fun hx => b2 ((noFail_congr h.fails).2 hx)⟩

/-! ### Lexical method -/

/-- What finding seeds guarantees, when the vertices are considered in an order satisfying `P`. -/
def SeedsPost (cfg : Cfg) (rows : Nat → List Nat) (n : Nat) (big : Prop) (w : World) (P : List Nat → Prop) (r : Except ErrorCode SeedResult) (w' : World) : Prop :=
  match r with
  | .error e => ErrPost w big e w'
  | .ok sr => ∃ order, P order ∧ order.Perm (List.range n) ∧ SeedInv cfg w w.live rows order sr w'

theorem lexicalStep_spec {cfg : Cfg} {nng : Digraph} {rows : Nat → List Nat} {w w3 : World} {L : Multiset Nat} {i v : Nat} {pre : List Nat} {marks : Buf Bool} {sr : SeedResult}
    (h : nng.Repr cfg rows) (hlive : ∀ x ∈ i :: nng.ids, x ∈ L) (hv : v < nng.n) (hpre : pre.length < nng.n)
    (a1 : SeedInv cfg w L rows pre sr w3) (a2 : MarksOK nng.n rows (greedySeeds rows pre) marks) :
    WpM (lexicalStep cfg nng i (marks, sr) v) w3 (fun c w' => match c with
      | .next st' => SeedInv cfg w L rows (pre ++ [v]) st'.2 w' ∧ MarksOK nng.n rows (greedySeeds rows (pre ++ [v])) st'.1
      | .stop r => SeedStop w L (cfg.clabelMax < nng.n) r w') := by
  unfold lexicalStep
  rw [wpM_bind, wpM_useK]
  refine ⟨a1.mem_live hlive, ?_⟩
  rw [wp_eq (checkMarks_spec h.csr a2 hv)]
  by_cases hadd : CanAdd rows (greedySeeds rows pre) v
  · rw [if_pos (by simpa using hadd), wpM_bind]
    refine (a1.add hadd hpre).mono ?_
    rintro ⟨ec, sr'⟩ w4 (⟨rfl, b2⟩ | ⟨hne, hse⟩)
    · simp only [ne_eq, not_true, if_false]
      rw [wpM_bind, wpM_useK]
      refine ⟨b2.mem_live hlive, ?_⟩
      refine (markNeighbors_spec h.csr a2 hv).mono fun marks' hm' => ?_
      rw [wpM_pure]
      exact ⟨b2, by rw [greedySeeds_snoc, if_pos hadd]; exact hm'⟩
    · dsimp only at hne ⊢
      rw [if_pos hne, wpM_pure]
      exact hse
  · rw [if_neg (by simpa using hadd), wpM_pure]
    exact ⟨a1.skip hadd, by rw [greedySeeds_snoc, if_neg hadd]; exact a2⟩

theorem findSeedsLexical_spec {cfg : Cfg} {nng : Digraph} {rows : Nat → List Nat} {w : World} (cap : Nat)
    (h : nng.Repr cfg rows) (hl : ∀ i ∈ nng.ids, i ∈ w.live) :
    WpM (findSeedsLexical cfg nng cap) w (SeedsPost cfg rows nng.n (cfg.clabelMax < nng.n) w (fun o => o = List.range nng.n)) := by
  unfold findSeedsLexical
  rw [wpM_bind]
  refine wpM_alloc (fun w1 hn k1 k2 k3 => ?_) (fun i w1 k1 k2 k3 => ?_)
  · rw [wpM_bind]
    refine wpM_alloc (fun w2 hn2 l1 l2 l3 => ?_) (fun j w2 l1 l2 l3 => ?_)
    · dsimp only
      simp only [freePtr, wpM_bind, wpM_pure]
      exact wpM_fail fun w3 m1 m2 m3 => ⟨by rw [m1, l1, k1], by rw [m2, l2, k2], by rw [m3], Or.inr ⟨rfl, hn⟩⟩
    · dsimp only
      simp only [freePtr, wpM_bind, wpM_pure]
      refine wpM_freeId w.live (by rw [l2, k2]) fun w3 m1 m2 m3 => ?_
      exact wpM_fail fun w4 p1 p2 p3 => ⟨by rw [p1, m1, l1, k1], by rw [p2, m2], by rw [p3], Or.inr ⟨rfl, hn⟩⟩
  · rw [wpM_bind]
    refine wpM_alloc (fun w2 hn2 l1 l2 l3 => ?_) (fun j w2 l1 l2 l3 => ?_)
    · dsimp only
      simp only [freePtr, wpM_bind, wpM_pure]
      refine wpM_freeId w.live (by rw [l2, k2]) fun w3 m1 m2 m3 => ?_
      exact wpM_fail fun w4 p1 p2 p3 => ⟨by rw [p1, m1, l1, k1], by rw [p2, m2], by rw [p3], Or.inr ⟨rfl, by rwa [noFail_congr k1] at hn2⟩⟩
    · dsimp only
      rw [wpM_bind]
      have hlive : ∀ x ∈ i :: nng.ids, x ∈ ({i} + w.live : Multiset Nat) := by
        intro x hx
        rcases List.mem_cons.1 hx with rfl | hx
        · simp
        · exact Multiset.mem_add.2 (Or.inr (hl x hx))
      refine (wpM_foldBM (fun pre (st : Buf Bool × SeedResult) w' => SeedInv cfg w ({i} + w.live) rows pre st.2 w' ∧ MarksOK nng.n rows (greedySeeds rows pre) st.1)
        (SeedStop w ({i} + w.live) (cfg.clabelMax < nng.n))
        (List.range nng.n) _ w2 ⟨⟨by rw [l1, k1], by rw [l2, k2]; rfl, Or.inl (by rw [l3, k3]), ⟨rfl, by simp [greedySeeds], _, rfl, rfl, by simp [greedySeeds]⟩, by simp [greedySeeds]⟩, marksOK_init⟩ ?_).mono ?_
      · rintro pre v post ⟨marks, sr⟩ w3 hsplit ⟨a1, a2⟩
        have hv : v < nng.n := by
          have : v ∈ List.range nng.n := by rw [hsplit]; simp
          simpa using this
        have hpre : pre.length < nng.n := by
          have : (List.range nng.n).length = (pre ++ v :: post).length := by rw [hsplit]
          simp at this; omega
        refine (lexicalStep_spec h hlive hv hpre a1 a2).mono ?_
        rintro (s' | r) w' hh
        · exact hh
        · exact hh
      · rintro (⟨marks, sr⟩ | ⟨ec, sr⟩) w3 hc
        · obtain ⟨a1, a2⟩ := hc
          dsimp only at a1 ⊢
          rw [wpM_bind]
          refine wpM_freeId (ptrOwn sr.seeds + w.live) (by rw [a1.live]; abel) fun w4 m1 m2 m3 => ?_
          rw [wpM_pure]
          exact ⟨_, rfl, List.Perm.refl _, by rw [m1, a1.fails], m2, by rw [m3]; exact a1.err, a1.holds, a1.cap⟩
        · obtain ⟨a1, a2, a3⟩ := hc
          dsimp only at a2 ⊢
          rw [wpM_bind]
          refine wpM_freeId (ptrOwn sr.seeds + w.live) (by rw [a2]; abel) fun w4 m1 m2 m3 => ?_
          rw [wpM_bind]
          refine wpM_freePtr w.live m2 fun w5 p1 p2 p3 => ?_
          rw [wpM_pure]
          exact ⟨by rw [p1, m1, a1], p2, by rw [p3, m3]; exact a3.1, a3.2⟩

end Scc
