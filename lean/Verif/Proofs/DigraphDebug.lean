/-
The functions of src/digraph_debug.c: no undefined behaviour, results, ownership.
-/
import Verif.Model.DigraphDebug
import Verif.Proofs.Sample

set_option linter.unusedSimpArgs false
set_option linter.unusedVariables false

namespace Scc

/-! ### memcpy -/

theorem copyInto_eq {α : Type} {src dst : Buf α} {n : Nat} (h1 : n ≤ src.len) (h2 : n ≤ dst.len) :
    ∃ b : Buf α, src.copyInto dst n = some b ∧ b.len = dst.len ∧ ∀ i, i < n → b.get i = src.get i := by
  refine ⟨⟨dst.len, fun i => if i < n then src.cell i else dst.cell i⟩, by rw [Buf.copyInto, if_pos ⟨h1, h2⟩], rfl, fun i hi => ?_⟩
  unfold Buf.get
  rw [if_pos (show i < dst.len by omega), if_pos (show i < src.len by omega)]
  exact if_pos hi

/-! ### Validity -/

theorem wp_iff_eq {α : Type} {x : Option α} {Q : α → Prop} (h : Wp x Q) {a : α} (ha : x = some a) : Q a := by
  obtain ⟨b, hb, hq⟩ := h
  rw [ha] at hb
  cases hb
  exact hq

/-- The row of `v` as stored in the arrays. -/
def storedRow (head tail : Buf Nat) (v : Nat) : List Nat :=
  (List.range' ((tail.get v).getD 0) ((tail.get (v + 1)).getD 0 - (tail.get v).getD 0)).map fun i => (head.get i).getD 0

theorem off_storedRow {head tail : Buf Nat} {n : Nat} (h0 : tail.get 0 = some 0)
    (hm : ∀ i, i < n → ∃ a b, tail.get i = some a ∧ tail.get (i + 1) = some b ∧ a ≤ b) :
    ∀ v, v ≤ n → tail.get v = some (off (storedRow head tail) v) := by
  intro v
  induction v with
  | zero => intro _; exact h0
  | succ v ih =>
    intro hv
    obtain ⟨a, b, ha, hb, hab⟩ := hm v (by omega)
    have := ih (by omega)
    rw [ha] at this
    cases this
    rw [hb, off, storedRow, ha, hb]
    simp
    omega

theorem csr_storedRow {head tail : Buf Nat} {n : Nat} (h0 : tail.get 0 = some 0)
    (hm : ∀ i, i < n → ∃ a b, tail.get i = some a ∧ tail.get (i + 1) = some b ∧ a ≤ b)
    (hh : ∀ i, i < (tail.get n).getD 0 → ∃ a, head.get i = some a ∧ a < n) : Csr n head tail (storedRow head tail) := by
  have ht := off_storedRow (head := head) h0 hm
  have hle : ∀ v, v ≤ n → off (storedRow head tail) v ≤ (tail.get n).getD 0 := fun v hv => by
    rw [ht n le_rfl]; exact off_mono hv
  have key : ∀ v, v < n → ∀ j a, (storedRow head tail v)[j]? = some a → head.get (off (storedRow head tail) v + j) = some a ∧ a < n := by
    intro v hv j a hj
    have hb : off (storedRow head tail) v + j < (tail.get n).getD 0 := by
      have h1 := hle (v + 1) hv
      have hjl : j < (storedRow head tail v).length := by
        by_contra hc; rw [List.getElem?_eq_none (by omega)] at hj; simp at hj
      rw [off] at h1
      omega
    obtain ⟨x, hx, hxn⟩ := hh _ hb
    rw [storedRow, List.getElem?_map, Option.map_eq_some_iff] at hj
    obtain ⟨i, hi, hia⟩ := hj
    rw [List.getElem?_eq_some_iff] at hi
    obtain ⟨hi1, hi2⟩ := hi
    rw [List.getElem_range'] at hi2
    rw [ht v hv.le] at hi2
    simp only [Option.getD_some, one_mul] at hi2
    rw [← hi2, hx] at hia
    simp only [Option.getD_some] at hia
    subst hia
    exact ⟨hx, hxn⟩
  refine ⟨ht, fun v hv j a hj => (key v hv j a hj).1, fun v hv a ha => ?_⟩
  obtain ⟨j, hj, rfl⟩ := List.getElem_of_mem ha
  exact (key v hv j _ (List.getElem?_eq_getElem hj)).2

theorem digraphIsValid_spec {cfg : Cfg} {d : Digraph} (htl : d.tail ≠ none → (ptrBuf d.tail).len = d.n + 1) (hhl : d.head ≠ none → (ptrBuf d.head).len = d.maxArcs)
    (hs : d.maxArcs ≤ cfg.sizeMax)
    (ht : d.tail ≠ none → ∀ v, v ≤ d.n → ∃ x, (ptrBuf d.tail).get v = some x)
    (hh : ∀ m, (ptrBuf d.tail).get d.n = some m → ∀ i, i < m → i < d.maxArcs → d.head ≠ none → ∃ x, (ptrBuf d.head).get i = some x) :
    Wp (digraphIsValid cfg d) fun b => b = true ↔ ∃ rows, d.Repr cfg rows := by
  unfold digraphIsValid
  by_cases hi : digraphIsInitialized cfg d = true
  swap
  · rw [if_pos (by simpa using hi), wp_some]
    simp only [Bool.false_eq_true, false_iff, not_exists]
    intro rows hr
    apply hi
    unfold digraphIsInitialized
    have h1 : d.tail.isNone = false := by
      have := hr.tail_len
      cases h : d.tail with
      | none => rw [h] at this; simp [ptrBuf] at this
      | some _ => rfl
    rw [h1, if_neg (by simp), if_neg (by have := hr.vertices; have := hr.arcs; omega)]
    rw [if_neg, if_neg]
    · rintro ⟨ha, hb⟩
      have := hr.head_null.2 (by simpa using hb)
      omega
    · rintro ⟨ha, hb⟩
      rw [hr.head_null.1 ha] at hb; simp at hb
  · rw [if_neg (by simp [hi])]
    unfold digraphIsInitialized at hi
    have i1 : d.tail ≠ none := by intro h; simp [h] at hi
    have i2 : ¬ (cfg.pointMax < d.n ∨ cfg.arcMax < d.maxArcs) := by
      intro h; rw [if_neg (by simpa using i1), if_pos h] at hi; simp at hi
    rw [if_neg (by simpa using i1), if_neg i2] at hi
    have i3 : d.maxArcs = 0 ↔ d.head = none := by
      by_cases h0 : d.maxArcs = 0
      · have : d.head = none := by
          by_contra hc
          rw [if_pos ⟨h0, by simpa [Option.isSome_iff_ne_none] using hc⟩] at hi; simp at hi
        simp [h0, this]
      · rw [if_neg (by simp [h0])] at hi
        have : d.head ≠ none := by
          intro hc
          rw [if_pos ⟨by omega, by simp [hc]⟩] at hi; simp at hi
        simp [h0, this]
    have htg := ht i1
    obtain ⟨t0, ht0⟩ := htg 0 (Nat.zero_le _)
    obtain ⟨tn, htn⟩ := htg d.n le_rfl
    simp only [wp_bind]
    rw [wp_eq ht0]
    by_cases h0 : t0 = 0
    swap
    · rw [if_pos h0, wp_pure]
      simp only [Bool.false_eq_true, false_iff, not_exists]
      intro rows hr
      have := hr.csr.tail_get 0 (Nat.zero_le _)
      rw [ht0] at this
      cases this
      exact h0 rfl
    subst h0
    rw [if_neg (by simp), wp_bind, wp_eq htn]
    by_cases h1 : d.maxArcs < tn
    · rw [if_pos h1, wp_pure]
      simp only [Bool.false_eq_true, false_iff, not_exists]
      intro rows hr
      have := hr.csr.total
      rw [htn] at this
      cases this
      have := hr.off_le
      omega
    rw [if_neg h1, wp_bind]
    refine wp_forLtB (fun i _ => ∀ j, j < i → ∃ a b, (ptrBuf d.tail).get j = some a ∧ (ptrBuf d.tail).get (j + 1) = some b ∧ a ≤ b)
      (fun _ => ¬ ∃ rows, d.Repr cfg rows) (Nat.zero_le _) (by intro j hj; omega) ?_ ?_ ?_
    · intro i _ _ hi hI
      obtain ⟨a, ha⟩ := htg i hi.le
      obtain ⟨b, hb⟩ := htg (i + 1) hi
      rw [wp_bind, wp_eq ha, wp_bind, wp_eq hb]
      by_cases hab : b < a
      · rw [if_pos hab, wp_pure]
        rintro ⟨rows, hr⟩
        have e1 := hr.csr.tail_get i hi.le
        have e2 := hr.csr.tail_get (i + 1) hi
        rw [ha] at e1
        rw [hb] at e2
        cases e1
        cases e2
        have := off_mono (rows := rows) (Nat.le_succ i)
        simp only [Nat.succ_eq_add_one] at this
        omega
      · rw [if_neg hab, wp_pure]
        intro j hj
        rcases Nat.lt_succ_iff_lt_or_eq.1 hj with hj | rfl
        · exact hI j hj
        · exact ⟨a, b, ha, hb, by omega⟩
    swap
    · intro _ hr
      rw [wp_pure]
      simp only [Bool.false_eq_true, false_iff]
      exact hr
    · intro _ hmono
      rw [wp_bind]
      have hhead : ∀ i, i < tn → ∃ x, (ptrBuf d.head).get i = some x := fun i hi => by
        refine hh tn htn i hi (by omega) fun hc => ?_
        have := i3.2 hc
        omega
      refine wp_forLtB (fun i _ => ∀ j, j < i → ∃ a, (ptrBuf d.head).get j = some a ∧ a < d.n)
        (fun _ => ¬ ∃ rows, d.Repr cfg rows) (Nat.zero_le _) (by intro j hj; omega) ?_ ?_ ?_
      · intro i _ _ hi hI
        obtain ⟨a, ha⟩ := hhead i hi
        rw [wp_bind, wp_eq ha]
        by_cases han : d.n ≤ a
        · rw [if_pos han, wp_pure]
          rintro ⟨rows, hr⟩
          have e1 := hr.csr.total
          rw [htn] at e1
          cases e1
          rw [← length_allArcs] at hi
          have e2 := allArcs_get hr.csr i _ (List.getElem?_eq_getElem hi)
          rw [ha] at e2
          have hmem := List.getElem_mem hi
          rw [← Option.some.inj e2] at hmem
          obtain ⟨v, hv, hav⟩ := mem_allArcs.1 hmem
          have := hr.csr.range v hv a hav
          omega
        · rw [if_neg han, wp_pure]
          intro j hj
          rcases Nat.lt_succ_iff_lt_or_eq.1 hj with hj | rfl
          · exact hI j hj
          · exact ⟨a, ha, by omega⟩
      · intro _ hr
        rw [wp_pure]
        refine iff_of_true rfl ⟨_, csr_storedRow ht0 hmono (by rw [htn]; exact hr), htl i1, ?_, by omega, by omega, hs, i3⟩
        by_cases hn : d.head = none
        · rw [hn, i3.2 hn]; rfl
        · exact hhl hn
      · intro _ hr
        rw [wp_pure]
        simp only [Bool.false_eq_true, false_iff]
        exact hr

theorem digraphIsValid_repr {cfg : Cfg} {d : Digraph} {rows : Nat → List Nat} (h : d.Repr cfg rows) : digraphIsValid cfg d = some true := by
  obtain ⟨b, hb, hq⟩ := digraphIsValid_spec (cfg := cfg) (d := d) (fun _ => h.tail_len) (fun _ => h.head_len) h.arcs_size
    (fun _ v hv => ⟨_, h.csr.tail_get v hv⟩) (fun m hm i hi _ _ => by
      have := h.csr.total
      rw [hm] at this
      cases this
      rw [← length_allArcs] at hi
      exact ⟨_, allArcs_get h.csr i _ (List.getElem?_eq_getElem hi)⟩)
  rw [hb, hq.2 ⟨rows, h⟩]

theorem off_const {rows : Nat → List Nat} {n k : Nat} : (∀ v, v < n → (rows v).length = k) ↔ ∀ v, v ≤ n → off rows v = v * k := by
  constructor
  · intro h v
    induction v with
    | zero => intro _; simp [off]
    | succ v ih => intro hv; rw [off, ih (by omega), h v hv, Nat.succ_mul]
  · intro h v hv
    have h1 := h v hv.le
    have h2 := h (v + 1) hv
    rw [off, h1, Nat.succ_mul] at h2
    omega

/-- Offsets that are multiples modulo `N` are multiples: they would decrease where the product wraps. -/
theorem off_mod {rows : Nat → List Nat} {n k N : Nat} (hk : k < N) (h : ∀ v, v ≤ n → off rows v = v * k % N) :
    ∀ v, v ≤ n → off rows v = v * k := by
  intro v
  induction v with
  | zero => intro _; simp [off]
  | succ v ih =>
    intro hv
    have h0 := ih (by omega)
    have h1 := h v (by omega)
    have h2 := h (v + 1) hv
    have hm := off_mono (rows := rows) (Nat.le_succ v)
    simp only [Nat.succ_eq_add_one] at hm
    have hlt : v * k < N := by
      rw [← h0, h1]; exact Nat.mod_lt _ (by omega)
    by_cases hw : (v + 1) * k < N
    · rw [h2, Nat.mod_eq_of_lt hw]
    · exfalso
      rw [Nat.succ_mul] at h2 hw
      rw [Nat.mod_eq_sub_mod (by omega), Nat.mod_eq_of_lt (by omega)] at h2
      omega

theorem isBalancedDigraph_repr {cfg : Cfg} {d : Digraph} {rows : Nat → List Nat} (h : d.Repr cfg rows) {k : Nat} (hk : k ≤ cfg.arcMax) :
    Wp (isBalancedDigraph cfg d k) fun b => b = true ↔ ∀ v, v < d.n → (rows v).length = k := by
  unfold isBalancedDigraph
  rw [wp_bind, wp_eq (digraphIsValid_repr h), if_neg (by simp), wp_bind]
  refine wp_forLtB (fun i _ => ∀ v, v < i → off rows v = v * k % (max cfg.sizeMax cfg.arcMax + 1))
    (fun _ => ¬ ∀ v, v < d.n → (rows v).length = k) (Nat.zero_le _) (by intro j hj; omega) ?_ ?_ ?_
  · intro i _ _ hi hI
    rw [wp_bind, wp_eq (h.csr.tail_get i (by omega))]
    by_cases hne : off rows i ≠ i * k % (max cfg.sizeMax cfg.arcMax + 1)
    · rw [if_pos hne, wp_pure]
      intro hall
      apply hne
      rw [← off_const.1 hall i (by omega), Nat.mod_eq_of_lt]
      have h1 := h.off_le
      have h2 := h.arcs
      have h3 := off_mono (rows := rows) (show i ≤ d.n by omega)
      have h4 := le_max_right cfg.sizeMax cfg.arcMax
      omega
    · rw [if_neg hne, wp_pure]
      intro v hv
      rcases Nat.lt_succ_iff_lt_or_eq.1 hv with hv | rfl
      · exact hI v hv
      · exact not_not.1 hne
  · intro _ hI
    rw [wp_pure]
    refine iff_of_true rfl (off_const.2 (off_mod ?_ fun v hv => hI v (by omega)))
    have := le_max_right cfg.sizeMax cfg.arcMax
    omega
  · intro _ hn
    rw [wp_pure]
    simp only [Bool.false_eq_true, false_iff]
    exact hn

/-! ### Comparison -/

/-- The first `n` cells of `b` are given by `f`. -/
structure Cells {α : Type} (b : Buf α) (n : Nat) (f : Nat → α) : Prop where
  len : b.len = n
  get : ∀ i, i < n → b.get i = some (f i)

theorem Cells.upd {α : Type} {b : Buf α} {n : Nat} {f g : Nat → α} (h : Cells b n f) {i : Nat} {x : α} (hi : i < n) (hx : g i = x) (hg : ∀ j, j < n → j ≠ i → g j = f j) :
    Cells (b.upd i x) n g := by
  refine ⟨h.len, fun j hj => ?_⟩
  by_cases hji : j = i
  · subst hji
    rw [Buf.get_upd_self _ _ (by rw [h.len]; exact hj), hx]
  · rw [Buf.get_upd_ne _ _ hji, h.get j hj, hg j hj hji]

theorem Cells.congr {α : Type} {b : Buf α} {n : Nat} {f g : Nat → α} (h : Cells b n f) (hg : ∀ j, j < n → g j = f j) : Cells b n g :=
  ⟨h.len, fun i hi => by rw [h.get i hi, hg i hi]⟩

theorem cells_fill {α : Type} (n : Nat) (x : α) : Cells (Buf.fill n x) n fun _ => x := ⟨rfl, fun i hi => by simp [hi]⟩

theorem foldB_get {σ ρ : Type} (head : Buf Nat) (body : Nat → σ → Option (Ctl σ ρ)) (l : List Nat) (lo : Nat) (s : σ)
    (h : ∀ j a, l[j]? = some a → head.get (lo + j) = some a) :
    foldB (fun s i => do let a ← head.get i; body a s) s (List.range' lo l.length) = foldB (fun s a => body a s) s l := by
  induction l generalizing lo s with
  | nil => rfl
  | cons b l ih =>
    rw [List.length_cons, List.range'_succ, foldB, foldB]
    have h0 := h 0 b rfl
    rw [Nat.add_zero] at h0
    rw [h0]
    simp only [Option.bind_eq_bind, Option.bind_some]
    congr 1
    funext c
    cases c with
    | stop r => rfl
    | next s' =>
      refine ih (lo + 1) s' fun j x hj => ?_
      have := h (j + 1) x (by simpa using hj)
      rwa [show lo + 1 + j = lo + (j + 1) by omega]

theorem rowLoopB_eq {σ ρ : Type} {n : Nat} {head tail : Buf Nat} {rows : Nat → List Nat} (hc : Csr n head tail rows) {r : Nat} (hr : r < n) (s : σ)
    (body : Nat → σ → Option (Ctl σ ρ)) : rowLoopB head tail r s body = foldB (fun s a => body a s) s (rows r) := by
  unfold rowLoopB
  rw [hc.tail_get (r + 1) (by omega), hc.tail_get r (by omega)]
  simp only [Option.bind_eq_bind, Option.bind_some]
  rw [if_pos (by simp [off])]
  rw [show off rows (r + 1) - off rows r = (rows r).length by simp [off]]
  exact foldB_get head body (rows r) (off rows r) s (hc.head_get r hr)

theorem markAll {α : Type} {n : Nat} (x : α) (l : List Nat) (hl : ∀ a ∈ l, a < n) {b : Buf α} {f : Nat → α} (h : Cells b n f) :
    Wp (l.foldlM (fun b a => b.set a x) b) fun b => Cells b n fun i => if i ∈ l then x else f i := by
  induction l generalizing b f with
  | nil => simpa using h
  | cons a l ih =>
    rw [List.foldlM_cons, wp_bind, Buf.wp_set]
    have ha := hl a (List.mem_cons_self ..)
    refine ⟨by rw [h.len]; exact ha, ?_⟩
    refine (ih (fun b hb => hl b (List.mem_cons_of_mem _ hb))
      (h.upd (g := fun j => if j = a then x else f j) ha (by simp) fun j _ hj => by simp [hj])).mono fun b hb => hb.congr fun j hj => ?_
    by_cases h1 : j = a
    · subst h1; simp
    · simp [h1]

theorem checkAll {n : Nat} (l : List Nat) (hl : ∀ a ∈ l, a < n) (la : List Nat) (lb : List Nat) {b : Buf Nat}
    (h : Cells b n fun i => if i ∈ lb then 2 else if i ∈ la then 1 else 0) :
    Wp (foldB (fun (b : Buf Nat) a => do
      let x ← b.get a
      if x = 0 then pure (Ctl.stop ())
      else do
        let b ← b.set a 2
        pure (Ctl.next b)) b l) fun c => match c with
      | .stop _ => ¬ ∀ a ∈ l, a ∈ la ∨ a ∈ lb
      | .next b => (∀ a ∈ l, a ∈ la ∨ a ∈ lb) ∧ Cells b n fun i => if i ∈ l ++ lb then 2 else if i ∈ la then 1 else 0 := by
  induction l generalizing b lb with
  | nil => simpa [foldB] using h
  | cons a l ih =>
    have ha := hl a (List.mem_cons_self ..)
    rw [foldB, wp_bind, wp_bind, wp_eq (h.get a ha)]
    by_cases h1 : a ∈ lb
    · rw [if_pos h1, if_neg (by simp), wp_bind, Buf.wp_set]
      refine ⟨by rw [h.len]; exact ha, ?_⟩
      rw [wp_pure]
      refine (ih (fun b hb => hl b (List.mem_cons_of_mem _ hb)) lb (h.upd ha (by simp [h1]) fun _ _ _ => rfl)).mono fun c hc => ?_
      cases c with
      | stop _ => intro hall; exact hc fun b hb => hall b (List.mem_cons_of_mem _ hb)
      | next b =>
        refine ⟨fun x hx => ?_, hc.2.congr fun j hj => ?_⟩
        · rcases List.mem_cons.1 hx with rfl | hx
          · exact Or.inr h1
          · exact hc.1 x hx
        · by_cases hja : j = a
          · subst hja; simp [h1]
          · simp [hja]
    · rw [if_neg h1]
      by_cases h2 : a ∈ la
      · rw [if_pos h2, if_neg (by simp), wp_bind, Buf.wp_set]
        refine ⟨by rw [h.len]; exact ha, ?_⟩
        rw [wp_pure]
        refine (ih (fun b hb => hl b (List.mem_cons_of_mem _ hb)) (a :: lb) (h.upd ha (by simp) fun j _ hj => by simp [hj])).mono fun c hc => ?_
        cases c with
        | stop _ =>
          intro hall
          refine hc fun b hb => ?_
          rcases hall b (List.mem_cons_of_mem _ hb) with h | h
          · exact Or.inl h
          · exact Or.inr (List.mem_cons_of_mem _ h)
        | next b =>
          refine ⟨fun x hx => ?_, hc.2.congr fun j hj => ?_⟩
          · rcases List.mem_cons.1 hx with rfl | hx
            · exact Or.inl h2
            · rcases hc.1 x hx with h | h
              · exact Or.inl h
              · rcases List.mem_cons.1 h with rfl | h
                · exact Or.inl h2
                · exact Or.inr h
          · simp only [List.mem_append, List.mem_cons]
            exact if_congr (by rw [or_assoc, or_left_comm]) rfl rfl
      · rw [if_neg h2, if_pos rfl, wp_pure]
        show Wp (pure (Ctl.stop ())) _
        rw [wp_pure]
        intro hall
        rcases hall a (List.mem_cons_self ..) with h | h
        · exact h2 h
        · exact h1 h

theorem equalRow_spec {n : Nat} {aH aT bH bT : Buf Nat} {ra rb : Nat → List Nat} (ha : Csr n aH aT ra) (hb : Csr n bH bT rb) {v : Nat} (hv : v < n)
    {row : Buf Nat} (hr : Cells row n fun _ => 0) :
    Wp (equalRow n aH aT bH bT v row) fun c => match c with
      | .stop _ => ¬ ∀ x, x ∈ ra v ↔ x ∈ rb v
      | .next row => (∀ x, x ∈ ra v ↔ x ∈ rb v) ∧ Cells row n fun _ => 0 := by
  unfold equalRow
  rw [wp_bind, rowLoop_eq ha hv]
  refine (markAll 1 (ra v) (ha.range v hv) hr).mono fun row1 h1 => ?_
  rw [wp_bind, rowLoopB_eq hb hv]
  refine (checkAll (rb v) (hb.range v hv) (ra v) [] (by simpa using h1)).mono fun c hc => ?_
  cases c with
  | stop _ =>
    rw [wp_pure]
    intro hall
    exact hc fun a ha => Or.inl ((hall a).2 ha)
  | next row2 =>
    obtain ⟨hc1, hc2⟩ := hc
    have hsub : ∀ a ∈ rb v, a ∈ ra v := fun a ha => by simpa using hc1 a ha
    refine wp_forLtB (fun i row => (∀ j, j < i → j ∈ ra v → j ∈ rb v) ∧
        Cells row n fun j => if j < i then 0 else if j ∈ rb v then 2 else if j ∈ ra v then 1 else 0)
      (fun _ => ¬ ∀ x, x ∈ ra v ↔ x ∈ rb v) (Nat.zero_le _) ⟨by intro j hj; omega, by simpa using hc2⟩ ?_ ?_ ?_
    · intro i row _ hi ⟨hI1, hI2⟩
      rw [wp_bind, wp_eq (hI2.get i hi), if_neg (lt_irrefl i)]
      by_cases h2 : i ∈ rb v
      · rw [if_pos h2, if_neg (by simp), wp_bind, Buf.wp_set]
        refine ⟨by rw [hI2.len]; exact hi, ?_⟩
        rw [wp_pure]
        refine ⟨fun j hj hja => ?_, hI2.upd hi (by simp) fun j _ hj => ?_⟩
        · rcases Nat.lt_succ_iff_lt_or_eq.1 hj with hj | rfl
          · exact hI1 j hj hja
          · exact h2
        · simp only [Nat.lt_succ_iff_lt_or_eq, hj, or_false]
      · rw [if_neg h2]
        by_cases h3 : i ∈ ra v
        · rw [if_pos h3, if_pos rfl, wp_pure]
          exact fun hall => h2 ((hall i).1 h3)
        · rw [if_neg h3, if_neg (by simp), wp_bind, Buf.wp_set]
          refine ⟨by rw [hI2.len]; exact hi, ?_⟩
          rw [wp_pure]
          refine ⟨fun j hj hja => ?_, hI2.upd hi (by simp) fun j _ hj => ?_⟩
          · rcases Nat.lt_succ_iff_lt_or_eq.1 hj with hj | rfl
            · exact hI1 j hj hja
            · exact absurd hja h3
          · simp only [Nat.lt_succ_iff_lt_or_eq, hj, or_false]
    · rintro row ⟨hI1, hI2⟩
      exact ⟨fun x => ⟨fun hx => hI1 x (ha.range v hv x hx) hx, hsub x⟩, hI2.congr fun j hj => by simp [hj]⟩
    · intro _ h
      exact h

theorem digraphsEqual_spec {cfg : Cfg} {a b : Digraph} {ra rb : Nat → List Nat} {w : World} (ha : a.Repr cfg ra) (hb : b.Repr cfg rb)
    (hal : ∀ i ∈ a.ids, i ∈ w.live) (hbl : ∀ i ∈ b.ids, i ∈ w.live) (hu : w.UncheckedOk) :
    WpM (digraphsEqual a b) w fun r w' => (r = true ↔ a.n = b.n ∧ ∀ v, v < a.n → ∀ x, x ∈ ra v ↔ x ∈ rb v) ∧
      w'.fails = w.fails ∧ w'.live = w.live ∧ w'.err = w.err := by
  have hlive : ∀ i ∈ a.ids ++ b.ids, i ∈ w.live := fun i hi => (List.mem_append.1 hi).elim (hal i) (hbl i)
  unfold digraphsEqual
  by_cases hn : a.n = b.n
  swap
  · rw [if_pos hn, wpM_pure]
    simp [hn]
  · rw [if_neg (not_not.2 hn), wpM_bind, wpM_useK]
    refine ⟨hlive, ?_⟩
    rw [wp_bind, wp_eq ha.csr.total, wp_bind, wp_eq hb.csr.total, wp_pure]
    dsimp only
    by_cases h0 : off ra a.n = 0 ∧ off rb b.n = 0
    · rw [if_pos h0, wpM_pure]
      refine ⟨iff_of_true rfl ⟨hn, fun v hv x => ?_⟩, rfl, rfl, rfl⟩
      rw [rows_nil_of_off h0.1 v hv, rows_nil_of_off h0.2 v (by omega)]
    · rw [if_neg h0, wpM_bind]
      refine wpM_allocU hu fun i w1 k1 k2 k3 => ?_
      rw [wpM_bind, wpM_useK]
      refine ⟨fun j hj => ?_, ?_⟩
      · rw [k2]
        rw [List.append_assoc] at hj
        rcases List.mem_append.1 hj with hj | hj
        · simp [ptrIds] at hj; simp [hj]
        · exact Multiset.mem_add.2 (Or.inr (hlive j hj))
      · refine wp_forLtB (fun v row => (∀ u, u < v → ∀ x, x ∈ ra u ↔ x ∈ rb u) ∧ Cells row a.n fun _ => 0)
          (fun _ => ¬ ∀ v, v < a.n → ∀ x, x ∈ ra v ↔ x ∈ rb v) (Nat.zero_le _) ⟨by intro j hj; omega, cells_fill _ _⟩ ?_ ?_ ?_
        · intro v row _ hv ⟨hI1, hI2⟩
          refine (equalRow_spec ha.csr (hn ▸ hb.csr) hv hI2).mono fun c hc => ?_
          cases c with
          | stop _ => exact fun hall => hc (hall v hv)
          | next row =>
            refine ⟨fun u hu x => ?_, hc.2⟩
            rcases Nat.lt_succ_iff_lt_or_eq.1 hu with hu | rfl
            · exact hI1 u hu x
            · exact hc.1 x
        · rintro row ⟨hI1, -⟩
          rw [wpM_bind]
          refine wpM_freePtr w.live k2 fun w2 l1 l2 l3 => ?_
          rw [wpM_pure]
          exact ⟨iff_of_true rfl ⟨hn, hI1⟩, l1.trans k1, l2, l3.trans k3⟩
        · intro _ hne
          rw [wpM_bind]
          refine wpM_freePtr w.live k2 fun w2 l1 l2 l3 => ?_
          rw [wpM_pure]
          refine ⟨?_, l1.trans k1, l2, l3.trans k3⟩
          simp only [Bool.false_eq_true, false_iff]
          exact fun h => hne h.2

/-! ### Copies -/

theorem Digraph.Storage.set {cfg : Cfg} {o : Digraph} {n m : Nat} {rows : Nat → List Nat} (h : o.Storage cfg n m) (hn : n ≤ cfg.pointMax) {hb tb : Buf Nat}
    (e1 : hb.len = (ptrBuf o.head).len) (e2 : tb.len = (ptrBuf o.tail).len) (hc : Csr n hb tb rows) :
    ({ o with head := ptrSet o.head hb, tail := ptrSet o.tail tb } : Digraph).Repr cfg rows := by
  refine ⟨?_, ?_, ?_, ?_, ?_, ?_, ?_⟩
  · show Csr o.n _ _ _
    rw [h.n_eq]; exact hc.of_get (fun v _ => ptrSet_get e2 v) (fun i _ => ptrSet_get e1 i)
  · show (ptrBuf (ptrSet o.tail tb)).len = o.n + 1
    rw [ptrSet_len e2, h.tail_len, h.n_eq]
  · show (ptrBuf (ptrSet o.head hb)).len = o.maxArcs
    rw [ptrSet_len e1, h.head_len, h.m_eq]
  · show o.n ≤ _; rw [h.n_eq]; exact hn
  · show o.maxArcs ≤ _; rw [h.m_eq]; exact h.arcs
  · show o.maxArcs ≤ _; rw [h.m_eq]; exact h.arcs_size
  · show o.maxArcs = 0 ↔ ptrSet o.head hb = none
    rw [ptrSet_eq_none, h.m_eq]; exact h.head_null

theorem ids_live {d : Digraph} {L : Multiset Nat} {w : World} (h : w.live = d.own + L) : ∀ i ∈ d.ids, i ∈ w.live := fun i hi => by
  rw [h]; exact Multiset.mem_add.2 (Or.inl (mem_ids_iff_own.1 hi))

theorem digraphFromPieces_spec {cfg : Cfg} {n m : Nat} {tail head : Buf Nat} {rows : Nat → List Nat} (w : World) (hn : n ≤ cfg.pointMax)
    (hc : Csr n head tail rows) (hm : off rows n ≤ m) (hh : m ≤ head.len) :
    WpM (digraphFromPieces cfg n m tail head) w fun r w' => match r with
      | .error e => ErrPost w (cfg.arcMax < m ∨ cfg.sizeMax < m) e w'
      | .ok d => w'.fails = w.fails ∧ w'.live = d.own + w.live ∧ w'.err = w.err ∧ d.n = n ∧ d.maxArcs = m ∧ d.Repr cfg rows := by
  unfold digraphFromPieces
  rw [wpM_bind]
  refine (initDigraph_spec cfg n m w).mono fun r w1 hr => ?_
  cases r with
  | error e => exact wpM_pure.2 hr
  | ok d =>
    obtain ⟨h1, h2, h3, h4⟩ := hr
    have htl : n + 1 ≤ tail.len := Buf.lt_of_get (hc.total)
    obtain ⟨tb, ht1, ht2, ht3⟩ := copyInto_eq (dst := ptrBuf d.tail) htl (by rw [h4.tail_len])
    obtain ⟨hb, hh1, hh2, hh3⟩ := copyInto_eq (dst := ptrBuf d.head) hh (by rw [h4.head_len])
    dsimp only
    rw [wpM_bind, wpM_useK]
    refine ⟨ids_live h2, ?_⟩
    rw [wp_eq ht1, wpM_bind, wpM_useK]
    refine ⟨ids_live h2, ?_⟩
    rw [wp_eq hh1, wpM_pure]
    exact ⟨h1, by simpa [Digraph.own] using h2, h3, h4.n_eq, h4.m_eq,
      h4.set hn hh2 ht2 (hc.of_get (fun v hv => ht3 v (by omega)) fun i hi => hh3 i (by omega))⟩

theorem copyDigraph_spec {cfg : Cfg} {d : Digraph} {rows : Nat → List Nat} {w : World} (h : d.Repr cfg rows) (hl : ∀ i ∈ d.ids, i ∈ w.live) :
    WpM (copyDigraph cfg d) w (NewPost cfg w d.n rows) := by
  unfold copyDigraph
  by_cases h0 : d.n = 0
  · rw [if_pos h0, h0]
    refine (emptyDigraph_spec cfg 0 0 w).mono fun r w1 hr => ?_
    cases r with
    | error e => exact hr
    | ok o =>
      obtain ⟨h1, h2, h3, h4, h5⟩ := hr
      refine ⟨h1, h2, h4.n_eq, ?_, h4.m_eq, Or.inl h3⟩
      refine ⟨?_, by rw [h4.tail_len, h4.n_eq], by rw [h4.head_len, h4.m_eq], by rw [h4.n_eq]; omega, by rw [h4.m_eq]; omega, by rw [h4.m_eq]; omega,
        by rw [h4.m_eq]; exact h4.head_null⟩
      rw [h4.n_eq]
      exact ⟨fun v hv => by rw [h5 v hv]; obtain rfl : v = 0 := by omega
                            rfl, fun v hv => by omega, fun v hv => by omega⟩
  · rw [if_neg h0, wpM_bind, wpM_useK]
    refine ⟨hl, ?_⟩
    rw [wp_eq h.csr.total, wpM_bind]
    refine (initDigraph_spec cfg d.n (off rows d.n) w).mono fun r w1 hr => ?_
    cases r with
    | error e => exact wpM_pure.2 hr
    | ok c =>
      obtain ⟨h1, h2, h3, h4⟩ := hr
      obtain ⟨tb, ht1, ht2, ht3⟩ := copyInto_eq (src := ptrBuf d.tail) (dst := ptrBuf c.tail) (n := d.n + 1) (by rw [h.tail_len]) (by rw [h4.tail_len])
      obtain ⟨hb, hh1, hh2, hh3⟩ := copyInto_eq (src := ptrBuf d.head) (dst := ptrBuf c.head) (n := off rows d.n) (by rw [h.head_len]; exact h.off_le) (by rw [h4.head_len])
      have hl1 : ∀ i ∈ d.ids ++ c.ids, i ∈ w1.live := fun i hi => by
        rcases List.mem_append.1 hi with hi | hi
        · rw [h2]; exact Multiset.mem_add.2 (Or.inr (hl i hi))
        · exact ids_live h2 i hi
      have hids : ({ c with tail := ptrSet c.tail tb } : Digraph).ids = c.ids := by
        unfold Digraph.ids
        dsimp only
        cases c.tail <;> rfl
      dsimp only
      rw [wpM_bind, wpM_useK]
      refine ⟨hl1, ?_⟩
      rw [wp_eq ht1]
      have hlen : hb.len = (ptrBuf c.head).len := hh2
      by_cases hpos : 0 < off rows d.n
      · rw [if_pos hpos, wpM_bind, wpM_useK]
        refine ⟨by rw [hids]; exact hl1, ?_⟩
        rw [wp_eq hh1, wpM_pure]
        exact ⟨h1, by simpa [Digraph.own] using h2, h4.n_eq,
          h4.set h.vertices hh2 ht2 (h.csr.of_get (fun v hv => ht3 v (by omega)) fun i hi => hh3 i hi), h4.m_eq, Or.inl h3⟩
      · rw [if_neg hpos, wpM_pure]
        have hr := h4.set h.vertices (hb := ptrBuf c.head) rfl ht2 (h.csr.of_get (fun v hv => ht3 v (by omega)) fun i hi => by omega)
        have hnone : c.head = none := h4.head_null.1 (by omega)
        have heq : ptrSet c.head (ptrBuf c.head) = c.head := by rw [hnone]; rfl
        rw [heq] at hr
        exact ⟨h1, by simpa [Digraph.own] using h2, h4.n_eq, hr, h4.m_eq, Or.inl h3⟩

/-! ### Strings -/

/-- Is the character part of the matrix? All others are ignored. -/
def matrixChar (c : Char) : Bool := c = '#' || c = '.' || c = '/'

/-- The character of a cell. -/
def cellChar (b : Bool) : Char := if b then '#' else '.'

/-- Columns of the arcs in a row, counted from `c`. -/
def marked (c : Nat) : List Bool → List Nat
  | [] => []
  | b :: l => (if b then [c] else []) ++ marked (c + 1) l

theorem mem_marked {c x : Nat} {l : List Bool} : x ∈ marked c l ↔ c ≤ x ∧ l[x - c]? = some true := by
  induction l generalizing c with
  | nil => simp [marked]
  | cons b l ih =>
    rw [marked, List.mem_append, ih]
    by_cases hx : x = c
    · subst hx
      cases b <;> simp
    · have h1 : x ∉ (if b then [c] else []) := by cases b <;> simp [hx]
      constructor
      · rintro (h | ⟨h2, h3⟩)
        · exact absurd h h1
        · refine ⟨by omega, ?_⟩
          rw [show x - c = (x - (c + 1)) + 1 by omega]
          simpa using h3
      · rintro ⟨h2, h3⟩
        refine Or.inr ⟨by omega, ?_⟩
        rw [show x - c = (x - (c + 1)) + 1 by omega] at h3
        simpa using h3

theorem sorted_marked {c : Nat} {l : List Bool} : (marked c l).Pairwise (· < ·) := by
  induction l generalizing c with
  | nil => simp [marked]
  | cons b l ih =>
    rw [marked]
    cases b with
    | false => simpa using ih
    | true =>
      simp only [if_true, List.singleton_append, List.pairwise_cons]
      exact ⟨fun x hx => by have := (mem_marked.1 hx).1; omega, ih⟩

theorem length_marked {c : Nat} {l : List Bool} : (marked c l).length = l.count true := by
  induction l generalizing c with
  | nil => rfl
  | cons b l ih =>
    rw [marked, List.length_append, ih]
    cases b <;> simp <;> omega

/-- Rows of the digraph described by a matrix. -/
def matrixRows (L : List (List Bool)) (v : Nat) : List Nat := marked 0 (L.getD v [])

/-- The text of a matrix: every row is followed by a slash. -/
def matrixText (L : List (List Bool)) : List Char := L.flatMap fun r => r.map cellChar ++ ['/']

/-- The step of the first pass. -/
def scanChar : Nat × Nat × Nat → Char → Option (Ctl (Nat × Nat × Nat) Unit) := fun (vertices, cells, arcs) c =>
    let cells := if c = '#' ∨ c = '.' then cells + 1 else cells
    let arcs := if c = '#' then arcs + 1 else arcs
    let vertices := if c = '/' ∧ vertices = 0 then cells else vertices
    if c = '/' then
      if vertices = 0 then none
      else if cells % vertices ≠ 0 then some (Ctl.stop ())
      else some (Ctl.next (vertices, cells, arcs))
    else some (Ctl.next (vertices, cells, arcs))

theorem scanString_eq (s : List Char) : scanString s = foldB scanChar (0, 0, 0) s := rfl

theorem matrixChar_false {c : Char} (h : matrixChar c = false) : c ≠ '#' ∧ c ≠ '.' ∧ c ≠ '/' := by
  simpa [matrixChar, and_assoc] using h

theorem scan_filter (s : List Char) : ∀ st, foldB scanChar st s = foldB scanChar st (s.filter matrixChar) := by
  induction s with
  | nil => intro st; rfl
  | cons c s ih =>
    rintro ⟨a, b, d⟩
    cases hc : matrixChar c with
    | true =>
      rw [List.filter_cons_of_pos hc, foldB, foldB]
      congr 1
      funext x
      cases x with
      | next st => exact ih st
      | stop r => rfl
    | false =>
      obtain ⟨h1, h2, h3⟩ := matrixChar_false hc
      rw [List.filter_cons_of_neg (by simp [hc]), foldB, scanChar]
      simp only [h1, h2, h3, or_self, if_false, false_and]
      exact ih _

theorem parse_filter {cfg : Cfg} (s : List Char) : ∀ st, s.foldlM (parseChar cfg) st = (s.filter matrixChar).foldlM (parseChar cfg) st := by
  induction s with
  | nil => intro st; rfl
  | cons c s ih =>
    intro st
    cases hc : matrixChar c with
    | true =>
      rw [List.filter_cons_of_pos hc, List.foldlM_cons, List.foldlM_cons]
      congr 1
      funext x
      exact ih x
    | false =>
      obtain ⟨h1, h2, h3⟩ := matrixChar_false hc
      rw [List.filter_cons_of_neg (by simp [hc]), List.foldlM_cons, parseChar, if_neg h1, if_neg h2, if_neg h3]
      exact ih st

theorem scan_row (r : List Bool) (rest : List Char) : ∀ vs cells arcs,
    foldB scanChar (vs, cells, arcs) (r.map cellChar ++ rest) = foldB scanChar (vs, cells + r.length, arcs + r.count true) rest := by
  induction r with
  | nil => intro vs cells arcs; simp
  | cons b r ih =>
    intro vs cells arcs
    rw [List.map_cons, List.cons_append, foldB]
    have hstep : scanChar (vs, cells, arcs) (cellChar b) = some (Ctl.next (vs, cells + 1, arcs + if b then 1 else 0)) := by
      cases b <;> simp [scanChar, cellChar]
    rw [hstep]
    simp only [Option.bind_eq_bind, Option.bind_some]
    rw [ih]
    congr 2
    · cases b <;> simp <;> omega

theorem scan_rows {n : Nat} (hn : 0 < n) (L : List (List Bool)) (hL : ∀ r ∈ L, r.length = n) : ∀ vs k arcs, (vs = n ∨ vs = 0 ∧ k = 0) →
    foldB scanChar (vs, k * n, arcs) (matrixText L) = some (.next (if L = [] then vs else n, (k + L.length) * n, arcs + (L.map (List.count true)).sum)) := by
  induction L with
  | nil => intro vs k arcs _; simp [matrixText, foldB]
  | cons r L ih =>
    intro vs k arcs hvs
    have hr := hL r (List.mem_cons_self ..)
    rw [matrixText, List.flatMap_cons, List.append_assoc, scan_row, hr, List.singleton_append, foldB]
    have hstep : scanChar (vs, k * n + n, arcs + r.count true) '/' = some (Ctl.next (n, (k + 1) * n, arcs + r.count true)) := by
      have hv : (if vs = 0 then k * n + n else vs) = n := by
        rcases hvs with rfl | ⟨rfl, rfl⟩
        · rw [if_neg (by omega)]
        · simp
      rw [scanChar]
      simp only [show ('/' : Char) ≠ '#' by decide, show ('/' : Char) ≠ '.' by decide, or_self, if_false, if_true, true_and, hv]
      rw [if_neg (by omega), if_neg]
      · rw [Nat.succ_mul]
      · rw [← Nat.succ_mul]
        simp
    rw [hstep]
    simp only [Option.bind_eq_bind, Option.bind_some]
    have := ih (fun r hr => hL r (List.mem_cons_of_mem _ hr)) n (k + 1) (arcs + r.count true) (Or.inl rfl)
    rw [matrixText] at this
    rw [this]
    simp only [ite_self, List.cons_ne_nil, if_false, List.length_cons, List.map_cons, List.sum_cons]
    rw [show k + 1 + L.length = k + (L.length + 1) by omega, Nat.add_assoc]

theorem parse_row {cfg : Cfg} (r : List Bool) (rest : List Char) : ∀ (st : ParseSt) (acc : List Nat), Pre st.head acc → st.pos = acc.length →
    acc.length + r.count true ≤ st.head.len → st.col + r.length ≤ cfg.pointMax →
    ∃ st' : ParseSt, (r.map cellChar ++ rest).foldlM (parseChar cfg) st = rest.foldlM (parseChar cfg) st' ∧ Pre st'.head (acc ++ marked st.col r) ∧
      st'.pos = (acc ++ marked st.col r).length ∧ st'.head.len = st.head.len ∧ st'.tail = st.tail ∧ st'.row = st.row := by
  induction r with
  | nil => intro st acc h1 h2 _ _; exact ⟨st, rfl, by simpa [marked] using h1, by simpa [marked] using h2, rfl, rfl, rfl⟩
  | cons b r ih =>
    intro st acc h1 h2 h3 h4
    rw [List.map_cons, List.cons_append, List.foldlM_cons]
    rw [List.length_cons] at h4
    have hmod : (st.col + 1) % (cfg.pointMax + 1) = st.col + 1 := Nat.mod_eq_of_lt (by omega)
    cases b with
    | false =>
      have hstep : parseChar cfg st (cellChar false) = some { st with col := st.col + 1 } := by
        rw [parseChar, if_neg (by decide), if_pos (by decide), hmod]
      rw [hstep]
      simp only [Option.bind_eq_bind, Option.bind_some]
      obtain ⟨st', k1, k2, k3, k4, k5, k6⟩ := ih { st with col := st.col + 1 } acc h1 h2 (by simpa using h3) (by dsimp only; omega)
      exact ⟨st', k1, by simpa [marked] using k2, by simpa [marked] using k3, k4, k5, k6⟩
    | true =>
      rw [List.count_cons_self] at h3
      have hstep : parseChar cfg st (cellChar true) = some { st with head := st.head.upd st.pos st.col, pos := st.pos + 1, col := st.col + 1 } := by
        rw [parseChar, if_pos (by decide), Buf.set_eq _ _ (by omega), hmod]
        rfl
      rw [hstep]
      simp only [Option.bind_eq_bind, Option.bind_some]
      obtain ⟨st', k1, k2, k3, k4, k5, k6⟩ := ih { st with head := st.head.upd st.pos st.col, pos := st.pos + 1, col := st.col + 1 } (acc ++ [st.col])
        (by dsimp only; rw [h2]; exact h1.snoc (by omega)) (by simp [h2]) (by simp; omega) (by dsimp only; omega)
      exact ⟨st', k1, by simpa [marked] using k2, by simpa [marked] using k3, k4, k5, k6⟩

theorem off_matrix (L : List (List Bool)) : off (matrixRows L) L.length = (L.map (List.count true)).sum := by
  have h : ∀ k, k ≤ L.length → off (matrixRows L) k = ((L.take k).map (List.count true)).sum := by
    intro k
    induction k with
    | zero => intro _; simp [off]
    | succ k ih =>
      intro hk
      rw [off, ih (by omega), List.take_succ, List.map_append, List.sum_append, List.getElem?_eq_getElem (by omega)]
      simp [matrixRows, length_marked, show k < L.length by omega]
  simpa using h L.length le_rfl

theorem parse_rows {cfg : Cfg} {n : Nat} (L : List (List Bool)) (hn : L.length = n) (hL : ∀ r ∈ L, r.length = n) (hp : n ≤ cfg.pointMax) :
    ∀ k (st : ParseSt), k ≤ n → Pre st.head (allArcs (matrixRows L) k) → st.pos = off (matrixRows L) k → off (matrixRows L) n ≤ st.head.len → st.tail.len = n + 1 →
      (∀ v, v ≤ k → st.tail.get v = some (off (matrixRows L) v)) → st.row = k → st.col = 0 →
      ∃ st' : ParseSt, (matrixText (L.drop k)).foldlM (parseChar cfg) st = some st' ∧ Pre st'.head (allArcs (matrixRows L) n) ∧ st'.pos = off (matrixRows L) n ∧
        st'.head.len = st.head.len ∧ st'.tail.len = n + 1 ∧ ∀ v, v ≤ n → st'.tail.get v = some (off (matrixRows L) v) := by
  intro k
  induction hd : n - k generalizing k with
  | zero =>
    intro st hk h1 h2 h3 h4 h5 h6 h7
    obtain rfl : k = n := by omega
    rw [List.drop_of_length_le (by omega)]
    exact ⟨st, rfl, h1, h2, rfl, h4, h5⟩
  | succ d ih =>
    intro st hk h1 h2 h3 h4 h5 h6 h7
    have hkL : k < L.length := by omega
    rw [List.drop_eq_getElem_cons hkL, matrixText, List.flatMap_cons, List.append_assoc]
    have hrow : matrixRows L k = marked 0 L[k] := by simp [matrixRows, hkL]
    have hr := hL _ (List.getElem_mem hkL)
    have hoff : off (matrixRows L) (k + 1) = off (matrixRows L) k + (L[k]).count true := by rw [off, hrow, length_marked]
    have hle : off (matrixRows L) (k + 1) ≤ off (matrixRows L) n := off_mono (by omega)
    obtain ⟨st1, k1, k2, k3, k4, k5, k6⟩ := parse_row (cfg := cfg) L[k] (['/'] ++ (L.drop (k + 1)).flatMap fun r => r.map cellChar ++ ['/']) st (allArcs (matrixRows L) k)
      h1 (by rw [h2, length_allArcs]) (by rw [length_allArcs]; omega) (by omega)
    rw [h7, ← hrow, ← allArcs_succ] at k2 k3
    rw [length_allArcs] at k3
    rw [k1, List.singleton_append, List.foldlM_cons]
    have hstep : parseChar cfg st1 '/' = some { st1 with tail := st1.tail.upd (k + 1) (off (matrixRows L) (k + 1)), row := k + 1, col := 0 } := by
      rw [parseChar, if_neg (by decide), if_neg (by decide), if_pos rfl, k6, h6, Buf.set_eq _ _ (by rw [k5]; omega), k3]
      rfl
    rw [hstep]
    simp only [Option.bind_eq_bind, Option.bind_some]
    obtain ⟨st', l1, l2, l3, l4, l5, l6⟩ := ih (k + 1) (by omega) { st1 with tail := st1.tail.upd (k + 1) (off (matrixRows L) (k + 1)), row := k + 1, col := 0 }
      (by omega) k2 k3 (by dsimp only; omega) (by dsimp only; rw [Buf.len_upd, k5]; exact h4) (fun v hv => by
        dsimp only
        by_cases hvk : v = k + 1
        · subst hvk; rw [Buf.get_upd_self _ _ (by rw [k5]; omega)]
        · rw [Buf.get_upd_ne _ _ hvk, k5]; exact h5 v (by omega)) rfl rfl
    rw [matrixText] at l1
    exact ⟨st', l1, l2, l3, l4.trans k4, l5, l6⟩

theorem digraphFromString_spec {cfg : Cfg} {n : Nat} (L : List (List Bool)) (hn : L.length = n) (hL : ∀ r ∈ L, r.length = n) (h0 : 0 < n) (hp : n ≤ cfg.pointMax)
    {s : List Char} (hs : s.filter matrixChar = matrixText L) (w : World) :
    WpM (digraphFromString cfg s) w (NewPost cfg w n (matrixRows L)) := by
  unfold digraphFromString
  rw [wpM_bind, wpM_useK]
  refine ⟨by simp, ?_⟩
  have hscan := scan_rows h0 L hL 0 0 0 (Or.inr ⟨rfl, rfl⟩)
  rw [← hs, Nat.zero_mul, ← scan_filter, ← scanString_eq, if_neg (by rintro rfl; simp at hn; omega), Nat.zero_add, ← off_matrix, hn] at hscan
  rw [wp_eq hscan]
  dsimp only
  rw [wpM_bind, Nat.zero_add]
  refine (initDigraph_spec cfg n (off (matrixRows L) n) w).mono fun r w1 hr => ?_
  cases r with
  | error e => exact wpM_pure.2 hr
  | ok d =>
    obtain ⟨h1, h2, h3, h4⟩ := hr
    dsimp only
    rw [wpM_bind, wpM_useK]
    refine ⟨ids_live h2, ?_⟩
    unfold parseString
    rw [wp_bind, Buf.wp_set]
    refine ⟨by rw [h4.tail_len]; omega, ?_⟩
    rw [parse_filter, hs]
    obtain ⟨st', l1, l2, l3, l4, l5, l6⟩ := parse_rows (cfg := cfg) L hn hL hp 0 ⟨ptrBuf d.head, (ptrBuf d.tail).upd 0 0, 0, 0, 0⟩ (by omega) (by simpa [allArcs] using Pre.nil _) rfl
      (by dsimp only; rw [h4.head_len]) (by dsimp only; rw [Buf.len_upd, h4.tail_len])
      (fun v hv => by
        obtain rfl : v = 0 := by omega
        dsimp only
        rw [Buf.get_upd_self _ _ (by rw [h4.tail_len]; omega)]
        rfl) rfl rfl
    rw [List.drop_zero] at l1
    rw [wp_bind, wp_eq l1, wp_bind, Buf.wp_set]
    refine ⟨by omega, ?_⟩
    rw [wp_pure, wpM_pure]
    refine ⟨h1, by simpa [Digraph.own] using h2, h4.n_eq, h4.set hp l4 (by rw [Buf.len_upd, l5, h4.tail_len]) ?_, h4.m_eq, Or.inl h3⟩
    refine csr_of_pre l2 (fun v hv => ?_) fun v hv a ha => ?_
    · by_cases hvn : v = n
      · subst hvn; rw [Buf.get_upd_self _ _ (by omega), l3]
      · rw [Buf.get_upd_ne _ _ hvn]; exact l6 v hv
    · have := mem_marked.1 ha
      have hvL : v < L.length := by omega
      simp only [List.getD_eq_getElem?_getD, List.getElem?_eq_getElem hvL, Option.getD_some, Nat.sub_zero] at this
      have hlt : a < L[v].length := by
        by_contra hc; rw [List.getElem?_eq_none (by omega)] at this; simp at this
      rw [hL _ (List.getElem_mem hvL)] at hlt
      exact hlt

/-! ### Printing -/

/-- The row of `v` in the adjacency matrix. -/
def matrixRow (rows : Nat → List Nat) (n v : Nat) : List Bool := (List.range n).map fun u => decide (u ∈ rows v)

theorem printRow_spec {n : Nat} {head tail : Buf Nat} {rows : Nat → List Nat} (hc : Csr n head tail rows) {v : Nat} (hv : v < n) {row : Buf Bool} (out : List Char)
    (hr : Cells row n fun _ => false) :
    Wp (printRow n head tail v (row, out)) fun r => Cells r.1 n (fun _ => false) ∧ r.2 = out ++ (matrixRow rows n v).map cellChar ++ ['\n'] := by
  unfold printRow
  dsimp only
  rw [wp_bind, rowLoop_eq hc hv]
  refine (markAll true (rows v) (hc.range v hv) hr).mono fun row1 h1 => ?_
  rw [wp_bind]
  refine wp_forLt (fun i (st : Buf Bool × List Char) => Cells st.1 n (fun j => if j < i then false else if j ∈ rows v then true else false) ∧
      st.2 = out ++ (matrixRow rows i v).map cellChar) (Nat.zero_le _) ⟨by simpa using h1, by simp [matrixRow]⟩ ?_ ?_
  · rintro i ⟨row, o⟩ _ hi ⟨hI1, hI2⟩
    dsimp only at hI1 hI2 ⊢
    rw [wp_bind, wp_eq (hI1.get i hi), wp_bind, Buf.wp_set]
    refine ⟨by rw [hI1.len]; exact hi, ?_⟩
    rw [wp_pure]
    refine ⟨hI1.upd hi (by simp) fun j _ hj => ?_, ?_⟩
    · simp only [Nat.lt_succ_iff_lt_or_eq, hj, or_false]
    · rw [hI2]
      simp only [matrixRow, List.range_succ, List.map_append, List.map_cons, List.map_nil, lt_irrefl, if_false, List.append_assoc, cellChar]
      by_cases hm : i ∈ rows v <;> simp [hm]
  · rintro ⟨row, o⟩ ⟨hI1, hI2⟩
    dsimp only at hI1 hI2 ⊢
    rw [wp_pure]
    exact ⟨hI1.congr fun j hj => by simp [hj], by rw [hI2]⟩

theorem printDigraph_spec {cfg : Cfg} {d : Digraph} {rows : Nat → List Nat} {w : World} (h : d.Repr cfg rows) (hl : ∀ i ∈ d.ids, i ∈ w.live) :
    WpM (printDigraph d) w fun out w' => w'.fails = w.fails ∧ w'.live = w.live ∧ w'.err = w.err ∧
      (d.n = 0 ∧ out = "[]\n\n".toList ∨ 0 < d.n ∧ ¬ w.NoFail ∧ out = "Out of memory.\n\n".toList ∨
        0 < d.n ∧ out = ((List.range d.n).flatMap fun v => (matrixRow rows d.n v).map cellChar ++ ['\n']) ++ ['\n']) := by
  unfold printDigraph
  by_cases h0 : d.n = 0
  · rw [if_pos h0, wpM_pure]
    exact ⟨rfl, rfl, rfl, Or.inl ⟨h0, rfl⟩⟩
  · rw [if_neg h0, wpM_bind]
    refine wpM_alloc (fun w1 hf k1 k2 k3 => ?_) fun i w1 k1 k2 k3 => ?_
    · dsimp only
      rw [wpM_pure]
      exact ⟨k1, k2, k3, Or.inr (Or.inl ⟨by omega, hf, rfl⟩)⟩
    · dsimp only
      rw [wpM_bind, wpM_useK]
      refine ⟨fun j hj => ?_, ?_⟩
      · rw [k2]
        rcases List.mem_cons.1 hj with rfl | hj
        · simp
        · exact Multiset.mem_add.2 (Or.inr (hl j hj))
      refine wp_forLt (fun v (st : Buf Bool × List Char) => Cells st.1 d.n (fun _ => false) ∧
          st.2 = (List.range v).flatMap fun v => (matrixRow rows d.n v).map cellChar ++ ['\n']) (Nat.zero_le _) ⟨cells_fill _ _, rfl⟩ ?_ ?_
      · rintro v ⟨row, o⟩ _ hv ⟨hI1, hI2⟩
        refine (printRow_spec h.csr hv o hI1).mono fun r hr => ⟨hr.1, ?_⟩
        dsimp only at hI2
        rw [hr.2, hI2, List.range_succ, List.flatMap_append]
        simp
      · rintro ⟨row, o⟩ ⟨-, hI2⟩
        dsimp only at hI2 ⊢
        rw [wpM_bind]
        refine wpM_freeId w.live k2 fun w2 l1 l2 l3 => ?_
        rw [wpM_pure]
        exact ⟨l1.trans k1, l2, l3.trans k3, Or.inr (Or.inr ⟨by omega, by rw [hI2]⟩)⟩

/-! ### Malformed strings -/

/-- Number of cells in a string. -/
def cellsIn (s : List Char) : Nat := s.countP fun c => c = '#' || c = '.'

/-- Number of cells in the first row of a string. -/
def firstRow (s : List Char) : Nat := cellsIn (s.takeWhile (· ≠ '/'))

theorem cellsIn_snoc (s : List Char) (c : Char) : cellsIn (s ++ [c]) = if c = '#' ∨ c = '.' then cellsIn s + 1 else cellsIn s := by
  unfold cellsIn
  rw [List.countP_append]
  by_cases h1 : c = '#' <;> by_cases h2 : c = '.' <;> simp [h1, h2]

theorem firstRow_eq {s pre post : List Char} (h : s = pre ++ '/' :: post) (hp : '/' ∉ pre) : firstRow s = cellsIn pre := by
  unfold firstRow
  rw [h, List.takeWhile_append_of_pos]
  · simp
  · intro a ha
    simp only [ne_eq, decide_not, Bool.not_eq_eq_eq_not, Bool.not_true, decide_eq_false_iff_not]
    rintro rfl
    exact hp ha

theorem scan_from {s : List Char} (hn : 0 < firstRow s) : ∀ (post pre : List Char) (vs arcs : Nat), s = pre ++ post → vs = (if '/' ∈ pre then firstRow s else 0) →
    (∀ p q, pre = p ++ '/' :: q → cellsIn p % firstRow s = 0) →
    Wp (foldB scanChar (vs, cellsIn pre, arcs) post) fun c => match c with
      | .stop _ => ∃ p q, s = p ++ '/' :: q ∧ cellsIn p % firstRow s ≠ 0
      | .next _ => ∀ p q, s = p ++ '/' :: q → cellsIn p % firstRow s = 0 := by
  intro post
  induction post with
  | nil =>
    intro pre vs arcs hs hvs hok
    rw [List.append_nil] at hs
    subst hs
    rw [foldB, wp_some]
    exact hok
  | cons c post ih =>
    intro pre vs arcs hs hvs hok
    have hs' : s = (pre ++ [c]) ++ post := by simp [hs]
    rw [foldB, wp_bind]
    have hsnoc := cellsIn_snoc pre c
    by_cases hc : c = '/'
    · subst hc
      have hvs' : (if vs = 0 then cellsIn pre else vs) = firstRow s := by
        by_cases hm : '/' ∈ pre
        · rw [if_pos hm] at hvs
          rw [hvs, if_neg (by omega)]
        · rw [if_neg hm] at hvs
          rw [if_pos hvs, firstRow_eq hs hm]
      rw [if_neg (by decide)] at hsnoc
      rw [scanChar]
      simp only [show ('/' : Char) ≠ '#' by decide, show ('/' : Char) ≠ '.' by decide, or_self, if_false, if_true, true_and, hvs']
      rw [if_neg (by omega)]
      by_cases hz : cellsIn pre % firstRow s ≠ 0
      · rw [if_pos hz, wp_some]
        show Wp (pure (Ctl.stop ())) _
        rw [wp_pure]
        exact ⟨pre, post, hs, hz⟩
      · rw [if_neg hz, wp_some]
        have := ih (pre ++ ['/']) (firstRow s) arcs hs' (by simp) (fun p q h => by
          rcases List.eq_nil_or_concat q with rfl | ⟨q', x, rfl⟩
          · have := List.append_inj_left' h (by simp)
            rw [← this]
            exact not_not.1 hz
          · rw [show p ++ '/' :: q'.concat x = (p ++ '/' :: q') ++ [x] by simp] at h
            exact hok p q' (List.append_inj_left' h (by simp)))
        rw [hsnoc] at this
        exact this
    · have hstep : ∃ arcs', scanChar (vs, cellsIn pre, arcs) c = some (.next (vs, cellsIn (pre ++ [c]), arcs')) := by
        refine ⟨if c = '#' then arcs + 1 else arcs, ?_⟩
        rw [hsnoc, scanChar]
        simp only [hc, false_and, if_false]
      obtain ⟨arcs', hstep⟩ := hstep
      rw [wp_eq hstep]
      refine ih (pre ++ [c]) vs arcs' hs' ?_ fun p q h => ?_
      · rw [hvs]
        simp [hc, Ne.symm hc]
      · rcases List.eq_nil_or_concat q with rfl | ⟨q', x, rfl⟩
        · have := List.append_inj_right' h (by simp)
          simp only [List.cons.injEq, and_true] at this
          exact absurd this hc
        · rw [show p ++ '/' :: q'.concat x = (p ++ '/' :: q') ++ [x] by simp] at h
          exact hok p q' (List.append_inj_left' h (by simp))

theorem digraphFromString_rejects {cfg : Cfg} {s : List Char} (hn : 0 < firstRow s) {p q : List Char} (hs : s = p ++ '/' :: q) (hp : cellsIn p % firstRow s ≠ 0) (w : World) :
    WpM (digraphFromString cfg s) w fun r w' => r = .error .invalidInput ∧ w'.fails = w.fails ∧ w'.live = w.live ∧ w'.err.code = .invalidInput := by
  unfold digraphFromString
  rw [wpM_bind, wpM_useK]
  refine ⟨by simp, ?_⟩
  rw [scanString_eq]
  refine (scan_from hn s [] 0 0 rfl (by simp) (by simp)).mono fun c hc => ?_
  cases c with
  | stop _ => exact wpM_fail fun w' h1 h2 h3 => ⟨rfl, h1, h2, by rw [h3]⟩
  | next _ => exact absurd (hc p q hs) hp

end Scc
