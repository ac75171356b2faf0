/-
The stages of label assignment (buffer level).
-/
import Verif.Proofs.NngSize

set_option linter.unusedSimpArgs false
set_option linter.unusedVariables false

namespace Scc

/-- All labels are below `m`, the number of clusters. -/
def LabelsLt (n m : Nat) (L : Nat → Option Nat) : Prop := ∀ v c, v < n → L v = some c → c < m

theorem encLabel_eq_na {cfg : Cfg} (hv : cfg.Valid) {x : Option Nat} (h : ∀ c, x = some c → c < cfg.clabelMax) : encLabel cfg x = cfg.na ↔ x = none := by
  cases x with
  | none => simp [encLabel]
  | some c =>
    have := h c rfl
    have := hv.na_out
    simp only [encLabel, reduceCtorEq, iff_false]
    omega

theorem LabelsAre.upd {cfg : Cfg} {n : Nat} {b : Buf Int} {L : Nat → Option Nat} (h : LabelsAre cfg n b L) {v : Nat} (hv : v < b.len) (x : Option Nat) :
    LabelsAre cfg n (b.upd v (encLabel cfg x)) (fun u => if u = v then x else L u) := by
  intro u hu
  by_cases huv : u = v
  · subst huv; rw [Buf.get_upd_self _ _ hv]; simp
  · rw [Buf.get_upd_ne _ _ huv]; simp [huv]; exact h u hu

theorem LabelsAre.congr {cfg : Cfg} {n : Nat} {b : Buf Int} {L L' : Nat → Option Nat} (h : LabelsAre cfg n b L) (he : ∀ v, v < n → L v = L' v) : LabelsAre cfg n b L' :=
  fun v hv => by rw [h v hv, he v hv]

theorem mem_labelled {n v : Nat} {L : Nat → Option Nat} : v ∈ labelled n L ↔ v < n ∧ (L v).isSome := by simp [labelled]

theorem nodup_labelled (n : Nat) (L : Nat → Option Nat) : (labelled n L).Nodup := List.nodup_range.filter _

theorem labelled_congr {n : Nat} {L L' : Nat → Option Nat} (h : ∀ v, v < n → L v = L' v) : labelled n L = labelled n L' := by
  unfold labelled
  exact List.filter_congr fun v hv => by rw [h v (List.mem_range.1 hv)]

theorem length_labelled_le (n : Nat) (L : Nat → Option Nat) : (labelled n L).length ≤ n := by
  unfold labelled
  exact (List.length_filter_le _ _).trans (by simp)

theorem labelled_full {n : Nat} {L : Nat → Option Nat} (h : (labelled n L).length = n) : ∀ v, v < n → (L v).isSome := by
  intro v hv
  have : (List.range n).filter (fun v => (L v).isSome) = List.range n := by
    apply List.Sublist.eq_of_length List.filter_sublist
    simpa [labelled] using h
  have hm : v ∈ (List.range n).filter fun v => (L v).isSome := by rw [this]; simpa using hv
  exact (List.mem_filter.1 hm).2

/-- Labelling the points of a list that had no labels. -/
theorem length_labelled_add {n : Nat} {L L' : Nat → Option Nat} {C : List Nat} (hC : C.Nodup) (hr : ∀ x ∈ C, x < n) (hd : ∀ x ∈ C, L x = none)
    (h : ∀ v, v < n → ((L' v).isSome ↔ (L v).isSome ∨ v ∈ C)) : (labelled n L').length = (labelled n L).length + C.length := by
  rw [← List.length_append]
  apply List.Perm.length_eq
  rw [List.perm_ext_iff_of_nodup (nodup_labelled _ _)]
  · intro v
    rw [List.mem_append, mem_labelled, mem_labelled]
    constructor
    · rintro ⟨h1, h2⟩
      exact ((h v h1).1 h2).imp (fun h3 => ⟨h1, h3⟩) id
    · rintro (⟨h1, h2⟩ | h1)
      · exact ⟨h1, (h v h1).2 (Or.inl h2)⟩
      · exact ⟨hr v h1, (h v (hr v h1)).2 (Or.inr h1)⟩
  · rw [List.nodup_append]
    refine ⟨nodup_labelled _ _, hC, fun a ha b hb hab => ?_⟩
    subst hab
    rw [mem_labelled, hd a hb] at ha
    simp at ha

/-! ### Seeds and their neighbours -/

theorem seedLab_snoc {rows : Nat → List Nat} {seeds : List Nat} {s : Nat} (hdis : ∀ s' ∈ seeds, ∀ x ∈ closedNbr rows s, x ∉ closedNbr rows s') (v : Nat) :
    seedLab rows (seeds ++ [s]) v = if v ∈ closedNbr rows s then some seeds.length else seedLab rows seeds v := by
  unfold seedLab
  rw [List.findIdx?_append]
  by_cases hv : v ∈ closedNbr rows s
  · have : seeds.findIdx? (fun s => decide (v ∈ closedNbr rows s)) = none := by
      rw [List.findIdx?_eq_none_iff]
      intro s' hs'
      simpa using hdis s' hs' v hv
    rw [this, if_pos hv]
    simp [List.findIdx?_cons, hv]
  · rw [if_neg hv]
    simp [List.findIdx?_cons, hv]

theorem seedLab_none {rows : Nat → List Nat} {seeds : List Nat} {v : Nat} : seedLab rows seeds v = none ↔ ∀ s ∈ seeds, v ∉ closedNbr rows s := by
  unfold seedLab
  rw [List.findIdx?_eq_none_iff]
  simp

theorem seedLab_some {rows : Nat → List Nat} {seeds : List Nat} {v c : Nat} (h : seedLab rows seeds v = some c) : ∃ s, seeds[c]? = some s ∧ v ∈ closedNbr rows s := by
  unfold seedLab at h
  rw [List.findIdx?_eq_some_iff_getElem] at h
  obtain ⟨hc, h1, -⟩ := h
  exact ⟨seeds[c], List.getElem?_eq_getElem hc, by simpa using h1⟩

theorem seedLab_lt {rows : Nat → List Nat} {seeds : List Nat} {v c : Nat} (h : seedLab rows seeds v = some c) : c < seeds.length := by
  obtain ⟨s, hs, -⟩ := seedLab_some h
  exact (List.getElem?_eq_some_iff.1 hs).1

/-- Conditions on the seeds: distinct points with pairwise disjoint closed neighbourhoods. -/
structure SeedsOk (n : Nat) (rows : Nat → List Nat) (seeds : List Nat) : Prop where
  range : ∀ s ∈ seeds, s < n
  disjoint : seeds.Pairwise (fun a b => ∀ x, x ∈ closedNbr rows a → x ∉ closedNbr rows b)

theorem SeedsOk.nodup {n : Nat} {rows : Nat → List Nat} {seeds : List Nat} (h : SeedsOk n rows seeds) : seeds.Nodup :=
  h.disjoint.imp fun {a b} hab => by
    rintro rfl
    exact hab a (by simp [closedNbr]) (by simp [closedNbr])

theorem SeedsOk.seedLab {n : Nat} {rows : Nat → List Nat} {seeds : List Nat} (h : SeedsOk n rows seeds) {i s v : Nat} (hi : seeds[i]? = some s)
    (hv : v ∈ closedNbr rows s) : Scc.seedLab rows seeds v = some i := by
  cases hs : Scc.seedLab rows seeds v with
  | none => exact absurd hv (seedLab_none.1 hs s (List.mem_of_getElem? hi))
  | some c =>
    obtain ⟨s', h1, h2⟩ := seedLab_some hs
    congr 1
    obtain ⟨hi', rfl⟩ := List.getElem?_eq_some_iff.1 hi
    obtain ⟨hc', rfl⟩ := List.getElem?_eq_some_iff.1 h1
    have hp := List.pairwise_iff_getElem.1 h.disjoint
    rcases Nat.lt_trichotomy c i with hlt | heq | hgt
    · exact absurd hv (hp c i hc' hi' hlt v h2)
    · exact heq
    · exact absurd h2 (hp i c hi' hc' hgt v hv)

theorem assignSeeds_spec {cfg : Cfg} (hcfg : cfg.Valid) {n : Nat} {head tail : Buf Nat} {rows : Nat → List Nat} {seeds : List Nat} {sb : Buf Nat} {labels : Buf Int}
    (hc : Csr n head tail rows) (hsb : Pre sb seeds) (hok : SeedsOk n rows seeds) (hnd : ∀ v, v < n → (rows v).Nodup ∧ v ∉ rows v)
    (hcap : seeds.length ≤ cfg.clabelMax) (hl : n ≤ labels.len) :
    Wp (assignSeeds cfg n seeds.length sb head tail labels) fun r => r.1.len = labels.len ∧ LabelsAre cfg n r.1 (seedLab rows seeds) ∧
      r.2 = (labelled n (seedLab rows seeds)).length := by
  unfold assignSeeds
  rw [wp_bind]
  refine wp_forLt (fun i b => b.len = labels.len ∧ ∀ v, v < i → b.get v = some cfg.na) (Nat.zero_le _) ⟨rfl, fun v hv => by omega⟩ ?_ ?_
  · intro i b _ hi ⟨a1, a2⟩
    rw [Buf.wp_set]
    refine ⟨by omega, a1, fun v hv => ?_⟩
    rcases Nat.lt_or_eq_of_le (Nat.lt_succ_iff.1 hv) with h | rfl
    · rw [Buf.get_upd_ne _ _ (by omega)]; exact a2 v h
    · rw [Buf.get_upd_self _ _ (by omega)]
  · intro b ⟨a1, a2⟩
    refine wp_forNe (fun i st => st.1.len = labels.len ∧ LabelsAre cfg n st.1 (seedLab rows (seeds.take i)) ∧ st.2 = (labelled n (seedLab rows (seeds.take i))).length)
      (Nat.zero_le _) ⟨a1, fun v hv => ?_, ?_⟩ ?_ ?_
    · show b.get v = _
      rw [a2 v hv]; simp [seedLab, encLabel]
    · simp [labelled, seedLab]
    · rintro i ⟨b, num⟩ - hi ⟨b1, b2, b3⟩
      dsimp only at b1 b2 b3 ⊢
      have hs := List.getElem?_eq_getElem hi
      have hmem : seeds[i] ∈ seeds := List.getElem_mem hi
      have htake : seeds.take (i + 1) = seeds.take i ++ [seeds[i]] := List.take_succ_eq_append_getElem hi
      have hilen : (seeds.take i).length = i := by simp; omega
      have hdis : ∀ s' ∈ seeds.take i, ∀ x ∈ closedNbr rows seeds[i], x ∉ closedNbr rows s' := by
        intro s' hs' x hx hx'
        obtain ⟨j, hj, rfl⟩ := List.mem_iff_getElem.1 hs'
        simp at hj
        rw [List.getElem_take] at hx'
        exact List.pairwise_iff_getElem.1 hok.disjoint j i (by omega) hi (by omega) x hx' hx
      generalize hsd : seeds[i] = s at *
      have hsn : s < n := hok.range s hmem
      rw [htake]
      rw [wp_bind, wp_eq (hsb i s hs), wp_bind, rowLoop_eq hc hsn]
      have hrl := wp_foldlM (f := fun (labels : Buf Int) a => labels.set a (i : Int))
        (fun pre b' => b'.len = labels.len ∧ LabelsAre cfg n b' (fun v => if v ∈ pre then some i else seedLab rows (seeds.take i) v)) (rows s) b
        ⟨b1, by simpa using b2⟩ (by
          intro pre a post b' hsplit ⟨c1, c2⟩
          have han : a < n := hc.range s hsn a (by rw [hsplit]; simp)
          rw [Buf.wp_set]
          refine ⟨by omega, c1, (c2.upd (v := a) (by omega) (some i)).congr fun v hv => ?_⟩
          by_cases hva : v = a
          · subst hva; simp
          · simp [hva])
      refine hrl.mono fun b' ⟨c1, c2⟩ => ?_
      rw [wp_bind, wp_eq (hc.tail_get (s + 1) hsn), wp_bind, wp_eq (hc.tail_get s hsn.le), wp_bind]
      have hsrow : s ∉ rows s := (hnd s hsn).2
      have hsn' : seedLab rows (seeds.take i) s = none := seedLab_none.2 fun s' hs' => hdis s' hs' s (by simp [closedNbr])
      have hgs : b'.get s = some cfg.na := by
        rw [c2 s hsn]; simp [hsrow, hsn', encLabel]
      rw [wp_eq hgs, wp_bind, Buf.wp_set]
      refine ⟨by omega, ?_⟩
      rw [wp_pure]
      refine ⟨c1, (c2.upd (v := s) (by omega) (some i)).congr fun v hv => ?_, ?_⟩
      · rw [seedLab_snoc hdis, hilen]
        by_cases hvs : v = s
        · subst hvs; simp [closedNbr]
        · by_cases hvr : v ∈ rows s
          · simp [hvs, hvr, closedNbr]
          · simp [hvs, hvr, closedNbr]
      · rw [if_pos rfl]
        have := length_labelled_add (n := n) (L := seedLab rows (seeds.take i)) (L' := seedLab rows (seeds.take i ++ [s])) (C := closedNbr rows s)
          (by simp only [closedNbr, List.nodup_cons]; exact ⟨hsrow, (hnd s hsn).1⟩)
          (fun x hx => by
            rcases List.mem_cons.1 hx with rfl | hx
            · exact hsn
            · exact hc.range s hsn x hx)
          (fun x hx => seedLab_none.2 fun s' hs' => hdis s' hs' x hx)
          (fun v hv => by
            rw [seedLab_snoc hdis]
            by_cases h : v ∈ closedNbr rows s <;> simp [h])
        rw [this, ← b3]
        simp only [closedNbr, List.length_cons]
        show num + (off rows s + (rows s).length - off rows s) + 1 = _
        omega
    · rintro ⟨b, num⟩ ⟨b1, b2, b3⟩
      rw [List.take_length] at b2 b3
      exact ⟨b1, b2, b3⟩

/-! ### Assignment by digraph -/

theorem find?_range' {l : List Nat} {p : Nat → Bool} {head : Buf Nat} {f : Nat → Option Bool} {lo : Nat} (hh : ∀ j a, l[j]? = some a → head.get (lo + j) = some a)
    (hf : ∀ a ∈ l, f a = some (!p a)) :
    Wp (forLtB lo (lo + l.length) () (fun j _ => do
        let a ← head.get j
        let u ← f a
        if !u then pure (Ctl.stop a) else pure (Ctl.next ()))) fun c => match c with | .stop a => l.find? p = some a | .next _ => l.find? p = none := by
  refine wp_forLtB (fun i _ => ∀ j a, lo + j < i → l[j]? = some a → p a = false) (fun a => l.find? p = some a) (by omega) (fun j a h => by omega) ?_ ?_ ?_
  · intro i _ h1 h2 hi
    obtain ⟨j, rfl⟩ : ∃ j, i = lo + j := ⟨i - lo, by omega⟩
    have hj : j < l.length := by omega
    have hg := List.getElem?_eq_getElem hj
    rw [wp_bind, wp_eq (hh j _ hg), wp_bind, wp_eq (hf _ (List.getElem_mem hj))]
    cases hp : p l[j] with
    | true =>
      rw [if_pos (by simp), wp_pure]
      dsimp only
      rw [List.find?_eq_some_iff_getElem]
      refine ⟨hp, j, hj, rfl, fun j' hj' => ?_⟩
      have := hi j' _ (by omega) (List.getElem?_eq_getElem (by omega))
      simp [this]
    | false =>
      rw [if_neg (by simp), wp_pure]
      intro j' a h3 h4
      rcases Nat.lt_or_eq_of_le (show j' ≤ j by omega) with h | rfl
      · exact hi j' a (by omega) h4
      · rw [hg] at h4; rw [← Option.some.inj h4]; exact hp
  · intro _ hi
    dsimp only
    rw [List.find?_eq_none]
    intro a ha
    obtain ⟨j, hj⟩ := List.mem_iff_getElem?.1 ha
    have : j < l.length := (List.getElem?_eq_some_iff.1 hj).1
    simp [hi j a (by omega) hj]
  · intro a ha; exact ha

theorem unassignedFlags_spec {cfg : Cfg} (hcfg : cfg.Valid) {n : Nat} {labels : Buf Int} {L : Nat → Option Nat} {scratch : Buf Bool} (h : LabelsAre cfg n labels L)
    (hlt : LabelsLt n cfg.clabelMax L) (hs : scratch.len = n) :
    Wp (unassignedFlags cfg n labels scratch) fun s => s.len = n ∧ ∀ v, v < n → s.get v = some (L v).isNone := by
  unfold unassignedFlags
  refine wp_forLt (fun i s => s.len = n ∧ ∀ v, v < i → s.get v = some (L v).isNone) (Nat.zero_le _) ⟨hs, fun v hv => by omega⟩ ?_ ?_
  · intro i s _ hi ⟨a1, a2⟩
    rw [wp_bind, wp_eq (h i hi), Buf.wp_set]
    refine ⟨by omega, a1, fun v hv => ?_⟩
    rcases Nat.lt_or_eq_of_le (Nat.lt_succ_iff.1 hv) with hv' | rfl
    · rw [Buf.get_upd_ne _ _ (by omega)]; exact a2 v hv'
    · rw [Buf.get_upd_self _ _ (by omega)]
      congr 1
      have := encLabel_eq_na hcfg (x := L v) (fun c hc => hlt v c hi hc)
      cases hL : L v <;> simp_all
  · intro s hs; exact hs

theorem firstAssigned_spec {n : Nat} {head tail : Buf Nat} {rows : Nat → List Nat} {scratch : Buf Bool} {L : Nat → Option Nat} (hc : Csr n head tail rows)
    (hs : ∀ v, v < n → scratch.get v = some (L v).isNone) {v : Nat} (hv : v < n) :
    firstAssigned head tail scratch v = some ((rows v).find? fun a => (L a).isSome) := by
  have key : Wp (firstAssigned head tail scratch v) fun r => r = (rows v).find? fun a => (L a).isSome := by
    unfold firstAssigned
    rw [wp_bind, wp_eq (hc.tail_get (v + 1) hv), wp_bind, wp_eq (hc.tail_get v hv.le)]
    have ho : off rows (v + 1) = off rows v + (rows v).length := rfl
    rw [ho, if_neg (by omega), wp_bind]
    refine (find?_range' (l := rows v) (p := fun a => (L a).isSome) (head := head) (f := scratch.get) (hc.head_get v hv) ?_).mono ?_
    · intro a ha
      rw [hs a (hc.range v hv a ha)]
      cases L a <;> rfl
    · rintro (_ | a) hh
      · dsimp only at hh ⊢; rw [wp_pure, hh]
      · dsimp only at hh ⊢; rw [wp_pure, hh]
  obtain ⟨r, h1, rfl⟩ := key
  exact h1

theorem nngLab_isSome {rows : Nat → List Nat} {L : Nat → Option Nat} {v : Nat} : (nngLab rows L v).isSome ↔ (L v).isSome ∨ ∃ a ∈ rows v, (L a).isSome := by
  unfold nngLab
  cases hv : L v with
  | some c => simp
  | none =>
    simp only [Option.isSome_none, Bool.false_eq_true, false_or]
    cases hf : (rows v).find? fun a => (L a).isSome with
    | none =>
      rw [List.find?_eq_none] at hf
      simp only [Option.bind_none, Option.isSome_none, Bool.false_eq_true, false_iff, not_exists, not_and]
      exact hf
    | some a =>
      have h1 := List.find?_some hf
      simp only [Option.bind_some]
      exact ⟨fun _ => ⟨a, List.mem_of_find?_eq_some hf, h1⟩, fun _ => h1⟩

theorem nngLab_lt {rows : Nat → List Nat} {L : Nat → Option Nat} {n m : Nat} (hr : ∀ v, v < n → ∀ a ∈ rows v, a < n) (h : LabelsLt n m L) : LabelsLt n m (nngLab rows L) := by
  intro v c hv hc
  unfold nngLab at hc
  cases hL : L v with
  | some c' => simp [hL] at hc; exact hc ▸ h v c' hv hL
  | none =>
    simp only [hL] at hc
    cases hf : (rows v).find? fun a => (L a).isSome with
    | none => simp [hf] at hc
    | some a =>
      simp [hf] at hc
      exact h a c (hr v hv a (List.mem_of_find?_eq_some hf)) hc

theorem assignByNngK_spec {cfg : Cfg} {n : Nat} {head tail : Buf Nat} {rows : Nat → List Nat} {scratch : Buf Bool} {labels : Buf Int} {L : Nat → Option Nat}
    (hc : Csr n head tail rows) (hs : ∀ v, v < n → scratch.get v = some (L v).isNone) (h : LabelsAre cfg n labels L) (hl : n ≤ labels.len) :
    Wp (assignByNngK n head tail scratch labels) fun r => r.1.len = labels.len ∧ LabelsAre cfg n r.1 (nngLab rows L) ∧
      (labelled n L).length + r.2 = (labelled n (nngLab rows L)).length := by
  unfold assignByNngK
  refine wp_forLt (fun i st => st.1.len = labels.len ∧ LabelsAre cfg n st.1 (fun v => if v < i then nngLab rows L v else L v) ∧
    (labelled n L).length + st.2 = (labelled n (fun v => if v < i then nngLab rows L v else L v)).length) (Nat.zero_le _) ⟨rfl, by simpa using h, by simp⟩ ?_ ?_
  · rintro i ⟨b, num⟩ - hi ⟨b1, b2, b3⟩
    dsimp only at b1 b2 b3 ⊢
    have hskip : nngLab rows L i = L i → LabelsAre cfg n b (fun v => if v < i + 1 then nngLab rows L v else L v) ∧
        (labelled n L).length + num = (labelled n (fun v => if v < i + 1 then nngLab rows L v else L v)).length := by
      intro he
      have : ∀ v, v < n → (if v < i then nngLab rows L v else L v) = if v < i + 1 then nngLab rows L v else L v := by
        intro v hv
        by_cases h1 : v < i
        · rw [if_pos h1, if_pos (by omega)]
        · by_cases h2 : v = i
          · subst h2; rw [if_neg h1, if_pos (by omega), he]
          · rw [if_neg h1, if_neg (by omega)]
      exact ⟨b2.congr this, by rw [b3, labelled_congr this]⟩
    rw [wp_bind, wp_eq (hs i hi)]
    cases hL : L i with
    | some c =>
      rw [Option.isNone_some, if_neg Bool.false_ne_true, wp_pure]
      exact ⟨b1, hskip (by simp [nngLab, hL])⟩
    | none =>
      rw [Option.isNone_none, if_pos rfl, wp_bind, wp_eq (firstAssigned_spec hc hs hi)]
      cases hf : (rows i).find? fun a => (L a).isSome with
      | none =>
        dsimp only
        rw [wp_pure]
        exact ⟨b1, hskip (by simp [nngLab, hL, hf])⟩
      | some a =>
        dsimp only
        have ham := List.mem_of_find?_eq_some hf
        have han := hc.range i hi a ham
        have has := List.find?_some hf
        have hal : (if a < i then nngLab rows L a else L a) = L a := by
          split
          · obtain ⟨c, hc⟩ := Option.isSome_iff_exists.1 has
            simp [nngLab, hc]
          · rfl
        have hnl : nngLab rows L i = L a := by simp [nngLab, hL, hf]
        rw [wp_bind, wp_eq ((b2 a han).trans (congrArg (fun z => some (encLabel cfg z)) hal)), wp_bind, Buf.wp_set]
        refine ⟨by omega, ?_⟩
        rw [wp_pure]
        refine ⟨b1, (b2.upd (v := i) (by omega) (L a)).congr fun v hv => ?_, ?_⟩
        · by_cases h1 : v = i
          · subst h1; rw [if_pos rfl, if_pos (by omega), hnl]
          · by_cases h2 : v < i
            · rw [if_neg h1, if_pos h2, if_pos (by omega)]
            · rw [if_neg h1, if_neg h2, if_neg (by omega)]
        · have := length_labelled_add (n := n) (L := fun v => if v < i then nngLab rows L v else L v) (L' := fun v => if v < i + 1 then nngLab rows L v else L v)
            (C := [i]) (List.nodup_singleton _) (by simpa using hi) (by simpa using hL) (fun v hv => by
              by_cases h1 : v = i
              · subst h1; simp [hnl, has]
              · by_cases h2 : v < i
                · have : v < i + 1 := by omega
                  simp [h2, this, h1]
                · have : ¬ v < i + 1 := by omega
                  simp [h2, this, h1])
          rw [this, ← b3]
          simp; omega
  · rintro ⟨b, num⟩ ⟨b1, b2, b3⟩
    have he : ∀ v, v < n → (if v < n then nngLab rows L v else L v) = nngLab rows L v := fun v hv => if_pos hv
    exact ⟨b1, b2.congr he, by rw [← labelled_congr he]; exact b3⟩

/-! ### Lists of assigned and unassigned points -/

theorem listAssigned_spec {cfg : Cfg} (hcfg : cfg.Valid) {n : Nat} {labels : Buf Int} {L : Nat → Option Nat} {b : Buf Nat} (h : LabelsAre cfg n labels L)
    (hlt : LabelsLt n cfg.clabelMax L) (hb : b.len = (labelled n L).length) :
    Wp (listAssigned cfg n labels b) fun b' => b'.len = b.len ∧ Pre b' (labelled n L) := by
  unfold listAssigned
  rw [wp_bind]
  have hsuc : ∀ i, (List.range (i + 1)).filter (fun v => (L v).isSome) = (List.range i).filter (fun v => (L v).isSome) ++ if (L i).isSome then [i] else [] := by
    intro i
    rw [List.range_succ, List.filter_append]
    congr 1
    by_cases h : (L i).isSome <;> simp [h]
  refine wp_forLt (fun i st => st.1.len = b.len ∧ st.2 = ((List.range i).filter fun v => (L v).isSome).length ∧ Pre st.1 ((List.range i).filter fun v => (L v).isSome))
    (Nat.zero_le _) ⟨rfl, by simp, by simp [Pre.nil]⟩ ?_ ?_
  · rintro i ⟨c, k⟩ - hi ⟨a1, a2, a3⟩
    dsimp only at a1 a2 a3 ⊢
    have hna := encLabel_eq_na hcfg (x := L i) (fun c hc => hlt i c hi hc)
    rw [wp_bind, wp_eq (h i hi), hsuc]
    cases hL : L i with
    | none =>
      rw [hL] at hna
      rw [if_neg (by simpa using hna.2 rfl), wp_pure]
      simpa using ⟨a1, a2, a3⟩
    | some c' =>
      rw [hL] at hna
      rw [if_pos (by simpa using hna), wp_bind, Buf.wp_set]
      have hlen : ((List.range i).filter fun v => (L v).isSome).length < (labelled n L).length := by
        have h1 : ((List.range (i + 1)).filter fun v => (L v).isSome).length ≤ (labelled n L).length := by
          unfold labelled
          exact (List.Sublist.filter _ (List.range_sublist.2 hi)).length_le
        rw [hsuc, hL] at h1
        simp at h1; simp; omega
      refine ⟨by omega, ?_⟩
      rw [wp_pure]
      refine ⟨a1, by simp [a2], ?_⟩
      rw [a2]
      simpa using a3.snoc (by rw [a1, hb]; exact hlen)
  · rintro ⟨c, k⟩ ⟨a1, a2, a3⟩
    rw [wp_pure]
    exact ⟨a1, a3⟩

theorem listUnassigned_spec {cfg : Cfg} (hcfg : cfg.Valid) {n : Nat} {labels : Buf Int} {L : Nat → Option Nat} {pts : Option (Buf Nat)} {P : List Nat} {ta : Buf Nat}
    (h : LabelsAre cfg n labels L) (hlt : LabelsLt n cfg.clabelMax L) (hP : ArrHolds (pts.map fun b => ⟨[], b⟩) P) (hPn : ∀ p ∈ P, p < n)
    (hroom : (P.filter fun v => (L v).isNone).length < ta.len) :
    Wp (listUnassigned cfg P.length pts labels ta) fun r => r.1.len = ta.len ∧ r.2 = (P.filter fun v => (L v).isNone).length ∧ Pre r.1 (P.filter fun v => (L v).isNone) := by
  unfold listUnassigned
  refine wp_forLt (fun i st => st.1.len = ta.len ∧ st.2 = ((P.take i).filter fun v => (L v).isNone).length ∧ Pre st.1 ((P.take i).filter fun v => (L v).isNone))
    (Nat.zero_le _) ⟨rfl, by simp, by simp [Pre.nil]⟩ ?_ ?_
  · rintro i ⟨c, k⟩ - hi ⟨a1, a2, a3⟩
    dsimp only at a1 a2 a3 ⊢
    have hp := List.getElem?_eq_getElem hi
    have hpn := hPn _ (List.getElem_mem hi)
    rw [List.take_succ_eq_append_getElem hi, List.filter_append]
    generalize P[i] = p at hp hpn
    have hna := encLabel_eq_na hcfg (x := L p) (fun c hc => hlt p c hpn hc)
    have hle : ((P.take i).filter fun v => (L v).isNone).length ≤ (P.filter fun v => (L v).isNone).length :=
      (List.Sublist.filter _ (List.take_sublist _ _)).length_le
    rw [wp_bind, wp_eq (idxGet_holds hP hp), wp_bind, Buf.wp_set]
    refine ⟨by omega, ?_⟩
    rw [wp_bind, wp_eq (h p hpn), wp_pure]
    have hsn := a3.snoc (a := p) (by omega)
    rw [← a2] at hsn
    cases hL : L p with
    | none =>
      rw [hL] at hna
      refine ⟨a1, by rw [if_pos (hna.2 rfl)]; simp [hL, a2], ?_⟩
      simpa [hL] using hsn
    | some c' =>
      rw [hL] at hna
      refine ⟨a1, by rw [if_neg (by simpa using hna)]; simp [hL, a2], ?_⟩
      simpa [hL] using hsn.left
  · rintro ⟨c, k⟩ hh
    rw [List.take_length] at hh
    exact hh

/-! ### Assignment by search -/

theorem copyFromNN_spec {cfg : Cfg} {n : Nat} {labels : Buf Int} {L : Nat → Option Nat} {okq nn : Buf Nat} {ans : Nat → Option (List Nat)} {T : List Nat}
    (h : LabelsAre cfg n labels L) (hl : n ≤ labels.len) (hT : ∀ q ∈ T, q < n ∧ L q = none) (hTn : T.Nodup)
    (hq : Pre okq (okOf ans T)) (hnone : ∀ v, v ∉ T → ans v = none)
    (hans : ∀ q l, ans q = some l → ∃ x, l = [x] ∧ x < n ∧ (L x).isSome)
    (hnn : ∀ (i q : Nat), (okOf ans T)[i]? = some q → ∀ x, ans q = some [x] → nn.get i = some x) :
    Wp (copyFromNN (okOf ans T).length okq nn labels) fun b => b.len = labels.len ∧ LabelsAre cfg n b (searchLab ans L) := by
  unfold copyFromNN
  refine wp_forLt (fun i b => b.len = labels.len ∧ LabelsAre cfg n b (fun v => if v ∈ (okOf ans T).take i then searchLab ans L v else L v)) (Nat.zero_le _)
    ⟨rfl, by simpa using h⟩ ?_ ?_
  · intro i b _ hi ⟨b1, b2⟩
    have hg := List.getElem?_eq_getElem hi
    have hmem : (okOf ans T)[i] ∈ okOf ans T := List.getElem_mem hi
    have htk : ∀ v, v ∈ (okOf ans T).take (i + 1) ↔ v ∈ (okOf ans T).take i ∨ v = (okOf ans T)[i] := by
      intro v; rw [List.take_succ_eq_append_getElem hi, List.mem_append, List.mem_singleton]
    generalize (okOf ans T)[i] = q at hg hmem htk
    obtain ⟨hqT, hqs⟩ := List.mem_filter.1 hmem
    obtain ⟨l, hal⟩ := Option.isSome_iff_exists.1 hqs
    obtain ⟨x, rfl, hxn, hxs⟩ := hans q l hal
    obtain ⟨hqn, hqL⟩ := hT q hqT
    have hxT : x ∉ (okOf ans T).take i := by
      intro hx
      have := (hT x (List.mem_filter.1 (List.mem_of_mem_take hx)).1).2
      rw [this] at hxs; simp at hxs
    rw [wp_bind, wp_eq (hnn i q hg x hal), wp_bind, wp_eq ((b2 x hxn).trans (congrArg (fun z => some (encLabel cfg z)) (if_neg hxT))), wp_bind, wp_eq (hq i q hg), Buf.wp_set]
    refine ⟨by omega, b1, (b2.upd (v := q) (by omega) (L x)).congr fun v hv => ?_⟩
    have hsl : searchLab ans L q = L x := by simp [searchLab, hqL, hal]
    by_cases hvq : v = q
    · subst hvq; rw [if_pos rfl, if_pos ((htk v).2 (Or.inr rfl)), hsl]
    · rw [if_neg hvq]
      by_cases hvt : v ∈ (okOf ans T).take i
      · rw [if_pos hvt, if_pos ((htk v).2 (Or.inl hvt))]
      · rw [if_neg hvt, if_neg (fun hc => ((htk v).1 hc).elim hvt hvq)]
  · intro b ⟨b1, b2⟩
    refine ⟨b1, b2.congr fun v hv => ?_⟩
    rw [List.take_length]
    split
    · rfl
    · rename_i hv'
      unfold searchLab
      cases hL : L v with
      | some c => rfl
      | none =>
        have : ans v = none := by
          by_contra hc
          have hvT : v ∈ T := by by_contra hvT; exact hc (hnone v hvT)
          exact hv' (List.mem_filter.2 ⟨hvT, Option.isSome_iff_ne_none.2 hc⟩)
        simp [this]

end Scc
