/-
The assignment of labels, with assertions: the same as without.
-/
import Verif.Proofs.AssertNngTypes
import Verif.Proofs.LabelsM
import Verif.Proofs.Estimate

set_option linter.unusedSimpArgs false
set_option linter.unusedVariables false

namespace Scc

theorem set_eq_some {α : Type} {b b' : Buf α} {i : Nat} {x : α} (h : b.set i x = some b') : b' = b.upd i x := by
  have h2 : Wp (b.set i x) (fun r => r = b') := ⟨b', h, rfl⟩
  rw [Buf.wp_set] at h2
  exact h2.2.symm

theorem forNe_same {σ : Type} {f g : Nat → σ → Option σ} (I : Nat → σ → Prop) {lo hi : Nat} {s : σ} (h0 : I lo s)
    (hs : ∀ i s, lo ≤ i → i < hi → I i s → f i s = g i s ∧ ∀ s', g i s = some s' → I (i + 1) s') : forNe lo hi s f = forNe lo hi s g := by
  unfold forNe
  by_cases h : lo ≤ hi
  · rw [if_pos h, if_pos h]; exact forLt_same I h0 hs
  · rw [if_neg h, if_neg h]

theorem assignSeedsDbg_eq {cfg : Cfg} (hcfg : cfg.Valid) {n : Nat} {head tail : Buf Nat} {rows : Nat → List Nat} {seeds : List Nat} {sb : Buf Nat} {labels : Buf Int}
    (hc : Csr n head tail rows) (hsb : Pre sb seeds) (hok : SeedsOk n rows seeds) (hnd : ∀ v, v < n → (rows v).Nodup ∧ v ∉ rows v)
    (hcap : seeds.length ≤ cfg.clabelMax) (hl : n ≤ labels.len) :
    assignSeedsDbg cfg n seeds.length sb head tail labels = assignSeeds cfg n seeds.length sb head tail labels := by
  unfold assignSeedsDbg assignSeeds
  have hinit : Wp (forLt 0 n labels fun i labels => labels.set i cfg.na) fun b => b.len = labels.len ∧ ∀ v, v < n → b.get v = some cfg.na := by
    refine wp_forLt (fun i b => b.len = labels.len ∧ ∀ v, v < i → b.get v = some cfg.na) (Nat.zero_le _) ⟨rfl, fun v hv => by omega⟩ ?_ fun b hb => hb
    intro i b _ hi ⟨a1, a2⟩
    rw [Buf.wp_set]
    refine ⟨by omega, a1, fun v hv => ?_⟩
    rcases Nat.lt_or_eq_of_le (Nat.lt_succ_iff.1 hv) with h | rfl
    · rw [Buf.get_upd_ne _ _ (by omega)]; exact a2 v h
    · rw [Buf.get_upd_self _ _ (by omega)]
  refine obind_eq rfl hinit fun b hb => ?_
  refine forNe_same (fun i st => st.1.len = labels.len ∧ ∀ v, v < n → seedLab rows (seeds.take i) v = none → st.1.get v = some cfg.na)
    ⟨hb.1, fun v hv _ => hb.2 v hv⟩ ?_
  rintro i ⟨b, num⟩ - hi ⟨b1, b2⟩
  dsimp only at b1 b2 ⊢
  have hs := List.getElem?_eq_getElem hi
  have hmem : seeds[i] ∈ seeds := List.getElem_mem hi
  have htake : seeds.take (i + 1) = seeds.take i ++ [seeds[i]] := List.take_succ_eq_append_getElem hi
  have hdis : ∀ s' ∈ seeds.take i, ∀ x ∈ closedNbr rows seeds[i], x ∉ closedNbr rows s' := by
    intro s' hs' x hx hx'
    obtain ⟨j, hj, rfl⟩ := List.mem_iff_getElem.1 hs'
    simp at hj
    rw [List.getElem_take] at hx'
    exact List.pairwise_iff_getElem.1 hok.disjoint j i (by omega) hi (by omega) x hx' hx
  generalize hsd : seeds[i] = s at *
  have hsn : s < n := hok.range s hmem
  have hfree : ∀ x ∈ closedNbr rows s, seedLab rows (seeds.take i) x = none := fun x hx => seedLab_none.2 fun s' hs' => hdis s' hs' x hx
  have hrow : (rows s).foldlM (fun labels a => do let l ← labels.get a; asrt (l = cfg.na); labels.set a (i : Int)) b =
      (rows s).foldlM (fun (labels : Buf Int) a => labels.set a (i : Int)) b := by
    refine foldlM_eq (fun pre b' => b'.len = labels.len ∧ ∀ v, v < n → seedLab rows (seeds.take i) v = none → v ∉ pre → b'.get v = some cfg.na) (rows s)
      ⟨b1, fun v h1 h2 _ => b2 v h1 h2⟩ ?_
    intro pre a post b' hsplit ⟨c1, c2⟩
    have ham : a ∈ rows s := by rw [hsplit]; simp
    have han : a < n := hc.range s hsn a ham
    have hapre : a ∉ pre := by
      intro h
      have h1 := (hnd s hsn).1
      rw [hsplit] at h1
      exact (List.nodup_append.1 h1).2.2 a h a (by simp) rfl
    refine ⟨?_, ?_⟩
    · rw [get_bind (c2 a han (hfree a (by simp [closedNbr, ham])) hapre)]
      exact asrt_bind rfl
    · rw [Buf.wp_set]
      refine ⟨by omega, c1, fun v h1 h2 h3 => ?_⟩
      rw [List.mem_append, List.mem_singleton, not_or] at h3
      rw [Buf.get_upd_ne _ _ h3.2]
      exact c2 v h1 h2 h3.1
  refine ⟨?_, ?_⟩
  · rw [asrt_bind (by have := hcfg.na_out; omega), asrt_bind (by omega)]
    refine get_both (hsb i s hs) ?_
    rw [get_bind (b2 s hsn (hfree s (by simp [closedNbr]))), asrt_bind rfl, rowLoop_eq hc hsn, rowLoop_eq hc hsn, hrow]
  · intro st' hst'
    rw [get_bind (hsb i s hs), rowLoop_eq hc hsn] at hst'
    have hrl := wp_foldlM (f := fun (labels : Buf Int) a => labels.set a (i : Int))
      (fun pre b' => b'.len = labels.len ∧ ∀ v, v < n → v ∉ pre → b'.get v = b.get v) (rows s) b
      ⟨b1, fun v _ _ => rfl⟩ (by
        intro pre a post b' hsplit ⟨c1, c2⟩
        have han : a < n := hc.range s hsn a (by rw [hsplit]; simp)
        rw [Buf.wp_set]
        refine ⟨by omega, c1, fun v h1 h3 => ?_⟩
        rw [List.mem_append, List.mem_singleton, not_or] at h3
        rw [Buf.get_upd_ne _ _ h3.2]
        exact c2 v h1 h3.1)
    obtain ⟨b', hb', c1, c2⟩ := hrl
    rw [get_bind hb', get_bind (hc.tail_get (s + 1) hsn), get_bind (hc.tail_get s hsn.le)] at hst'
    have hsrow : s ∉ rows s := (hnd s hsn).2
    rw [get_bind ((c2 s hsn hsrow).trans (b2 s hsn (hfree s (by simp [closedNbr]))))] at hst'
    obtain ⟨b'', hb'', h3⟩ := Option.bind_eq_some_iff.1 hst'
    cases h3
    rw [set_eq_some hb'']
    refine ⟨c1, fun v hv hvn => ?_⟩
    rw [htake, seedLab_snoc hdis] at hvn
    by_cases hvc : v ∈ closedNbr rows s
    · rw [if_pos hvc] at hvn; cases hvn
    rw [if_neg hvc] at hvn
    rw [closedNbr, List.mem_cons, not_or] at hvc
    rw [Buf.get_upd_ne _ _ hvc.1]
    exact (c2 v hv hvc.2).trans (b2 v hv hvn)

theorem assignByNngKDbg_eq {cfg : Cfg} (hcfg : cfg.Valid) {n : Nat} {head tail : Buf Nat} {rows : Nat → List Nat} {scratch : Buf Bool} {labels : Buf Int} {L : Nat → Option Nat}
    (hc : Csr n head tail rows) (hs : ∀ v, v < n → scratch.get v = some (L v).isNone) (h : LabelsAre cfg n labels L) (hlt : LabelsLt n cfg.clabelMax L) :
    assignByNngKDbg cfg n head tail scratch labels = assignByNngK n head tail scratch labels := by
  unfold assignByNngKDbg assignByNngK
  refine forLt_same (fun i st => ∀ v, v < n → i ≤ v ∨ (L v).isSome → st.1.get v = some (encLabel cfg (L v))) (fun v hv _ => h v hv) ?_
  rintro i ⟨b, num⟩ - hi hb
  dsimp only at hb ⊢
  cases hL : L i with
  | some c =>
    have hsi : scratch.get i = some false := by rw [hs i hi, hL]; rfl
    refine ⟨get_both hsi rfl, fun st' hst' => ?_⟩
    rw [get_bind hsi, if_neg Bool.false_ne_true] at hst'
    cases hst'
    exact fun v hv hor => hb v hv (hor.imp (fun h => by omega) id)
  | none =>
    have hsi : scratch.get i = some true := by rw [hs i hi, hL]; rfl
    have hbi : b.get i = some cfg.na := by rw [hb i hi (Or.inl le_rfl), hL]; rfl
    have hfa := firstAssigned_spec hc hs hi
    cases hf : (rows i).find? fun a => (L a).isSome with
    | none =>
      rw [hf] at hfa
      refine ⟨get_both hsi ?_, fun st' hst' => ?_⟩
      · rw [if_pos rfl, if_pos rfl, get_bind hbi, asrt_bind rfl]
        exact get_both hfa rfl
      · rw [get_bind hsi, if_pos rfl, get_bind hfa] at hst'
        cases hst'
        exact fun v hv hor => hb v hv (hor.imp (fun h => by omega) id)
    | some a =>
      rw [hf] at hfa
      have han := hc.range i hi a (List.mem_of_find?_eq_some hf)
      have has : (L a).isSome := List.find?_some (p := fun a => (L a).isSome) hf
      have hba : b.get a = some (encLabel cfg (L a)) := hb a han (Or.inr has)
      have hne : encLabel cfg (L a) ≠ cfg.na := by
        rw [Ne, encLabel_eq_na hcfg fun c hc => hlt a c han hc]
        intro h0; rw [h0] at has; cases has
      refine ⟨get_both hsi ?_, fun st' hst' => ?_⟩
      · rw [if_pos rfl, if_pos rfl, get_bind hbi, asrt_bind rfl]
        refine get_both hfa ?_
        dsimp only
        exact get_both hba (asrt_bind hne)
      · rw [get_bind hsi, if_pos rfl, get_bind hfa] at hst'
        dsimp only at hst'
        rw [get_bind hba] at hst'
        obtain ⟨b'', hb'', h3⟩ := Option.bind_eq_some_iff.1 hst'
        cases h3
        intro v hv hor
        rw [set_eq_some hb'']
        have hvi : v ≠ i := by
          rintro rfl
          rcases hor with h1 | h1
          · omega
          · rw [hL] at h1; cases h1
        rw [Buf.get_upd_ne _ _ hvi]
        exact hb v hv (hor.imp (fun h => by omega) id)

theorem listAssignedDbg_eq {cfg : Cfg} (hcfg : cfg.Valid) {n num : Nat} {labels : Buf Int} {L : Nat → Option Nat} {b : Buf Nat} (h : LabelsAre cfg n labels L)
    (hlt : LabelsLt n cfg.clabelMax L) (hnum : num = (labelled n L).length) (hpm : n ≤ cfg.pointMax) :
    listAssignedDbg cfg n num labels b = listAssigned cfg n labels b := by
  unfold listAssignedDbg listAssigned
  rw [asrt_bind hpm]
  have hcount : ∀ st, (forLt 0 n (b, 0) fun i (b, w) => do
      let l ← labels.get i
      if l ≠ cfg.na then do
        let b ← b.set w i
        pure (b, w + 1)
      else pure (b, w)) = some st → st.2 = num := by
    intro st hst
    have hinv : ∀ (m : Nat) (st : Buf Nat × Nat), m ≤ n → (forLt 0 m (b, 0) fun i (b, w) => do
      let l ← labels.get i
      if l ≠ cfg.na then do
        let b ← b.set w i
        pure (b, w + 1)
      else pure (b, w)) = some st → st.2 = (labelled m L).length := by
      intro m
      induction m with
      | zero => intro st _ hst; cases hst; rfl
      | succ m ih =>
        intro st hm hst
        unfold forLt at hst ih
        rw [Nat.sub_zero] at hst ih
        rw [List.range'_1_concat, List.foldlM_append] at hst
        obtain ⟨⟨b', w⟩, h1, h2⟩ := Option.bind_eq_some_iff.1 hst
        have h3 := ih _ (by omega) h1
        dsimp only at h3
        rw [Nat.zero_add, List.foldlM_cons] at h2
        obtain ⟨st1, h4, h5⟩ := Option.bind_eq_some_iff.1 h2
        cases h5
        dsimp only at h4
        rw [get_bind (h m (by omega))] at h4
        have hna := encLabel_eq_na hcfg (x := L m) fun c hc => hlt m c (by omega) hc
        unfold labelled at h3 ⊢
        rw [List.range_succ, List.filter_append]
        cases hL : L m with
        | none =>
          rw [hL] at hna h4
          rw [if_neg (by simpa using hna.2 rfl)] at h4
          cases h4
          simpa [hL] using h3
        | some c =>
          rw [hL] at hna h4
          rw [if_pos (by simpa using hna)] at h4
          obtain ⟨b'', -, h6⟩ := Option.bind_eq_some_iff.1 h4
          cases h6
          simpa [hL] using h3
    rw [hinv n st le_rfl hst, hnum]
  refine bind_eq_some fun st hst => ?_
  exact asrt_bind (hcount st hst)

theorem copyFromNNDbg_eq {cfg : Cfg} (hcfg : cfg.Valid) {n : Nat} {labels : Buf Int} {L : Nat → Option Nat} {okq nn : Buf Nat} {ans : Nat → Option (List Nat)} {T : List Nat}
    (h : LabelsAre cfg n labels L) (hlt : LabelsLt n cfg.clabelMax L) (hT : ∀ q ∈ T, q < n ∧ L q = none) (hTn : T.Nodup)
    (hq : Pre okq (okOf ans T))
    (hans : ∀ q l, ans q = some l → ∃ x, l = [x] ∧ x < n ∧ (L x).isSome)
    (hnn : ∀ (i q : Nat), (okOf ans T)[i]? = some q → ∀ x, ans q = some [x] → nn.get i = some x) :
    copyFromNNDbg cfg (okOf ans T).length okq nn labels = copyFromNN (okOf ans T).length okq nn labels := by
  unfold copyFromNNDbg copyFromNN
  refine forLt_same (fun i b => ∀ v, v < n → v ∉ (okOf ans T).take i → b.get v = some (encLabel cfg (L v))) (fun v hv _ => h v hv) ?_
  intro i b _ hi hb
  have hg := List.getElem?_eq_getElem hi
  have hmem : (okOf ans T)[i] ∈ okOf ans T := List.getElem_mem hi
  have htk : ∀ v, v ∈ (okOf ans T).take (i + 1) ↔ v ∈ (okOf ans T).take i ∨ v = (okOf ans T)[i] := by
    intro v; rw [List.take_succ_eq_append_getElem hi, List.mem_append, List.mem_singleton]
  have hnew : (okOf ans T)[i] ∉ (okOf ans T).take i := by
    intro hx
    obtain ⟨j, hj, he⟩ := List.mem_iff_getElem.1 hx
    simp at hj
    rw [List.getElem_take] at he
    exact absurd ((List.Nodup.getElem_inj_iff (hTn.filter _)).1 he) (by omega)
  generalize (okOf ans T)[i] = q at hg hmem htk hnew
  obtain ⟨hqT, hqs⟩ := List.mem_filter.1 hmem
  obtain ⟨l, hal⟩ := Option.isSome_iff_exists.1 hqs
  obtain ⟨x, rfl, hxn, hxs⟩ := hans q l hal
  obtain ⟨hqn, hqL⟩ := hT q hqT
  have hxT : x ∉ (okOf ans T).take i := by
    intro hx
    have := (hT x (List.mem_filter.1 (List.mem_of_mem_take hx)).1).2
    rw [this] at hxs; simp at hxs
  have hbq : b.get q = some cfg.na := by rw [hb q hqn hnew, hqL]; rfl
  have hbx := hb x hxn hxT
  have hne : encLabel cfg (L x) ≠ cfg.na := by
    rw [Ne, encLabel_eq_na hcfg fun c hc => hlt x c hxn hc]
    intro h0; rw [h0] at hxs; cases hxs
  have hnx := hnn i q hg x hal
  refine ⟨?_, fun b' hb' => ?_⟩
  · rw [get_bind (hq i q hg), get_bind hbq, asrt_bind rfl]
    refine get_both hnx ?_
    refine get_both hbx ?_
    rw [asrt_bind hne, get_bind (hq i q hg)]
  · rw [get_bind hnx, get_bind hbx, get_bind (hq i q hg)] at hb'
    rw [set_eq_some hb']
    intro v hv hvt
    rw [htk, not_or] at hvt
    rw [Buf.get_upd_ne _ _ hvt.2]
    exact hb v hv hvt.1

end Scc
