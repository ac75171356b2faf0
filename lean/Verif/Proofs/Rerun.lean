/-
From two processes to twins and back, and histories in two processes.
-/
import Verif.Spec.Rerun
import Verif.Proofs.RepeatHi

namespace Scc

variable {F : Type} [FloatOps F] {ρ : Nat → Nat} {B : Set Nat} {w v w' v' : World} {x c : Prop}

/-- The twin of two processes. -/
def twinOf (x c : Prop) (ρ : Nat → Nat) (B : Set Nat) (w v : World) : Twin := ⟨w.clock, v.clock, fun i j => i ∈ B ∧ j = ρ i, w.err, v.err, w.fails, v.fails, x, c⟩

/-- Addresses after the calls. -/
def moved (ρ : Nat → Nat) (w v : World) (i : Nat) : Nat := if i < w.clock then ρ i else v.clock + (i - w.clock)

theorem twin_start (h : SameProcess ρ B w v) (hc : c → w.NoFail) : (twinOf x c ρ B w v).Worlds w v := by
  refine ⟨⟨0, rfl, rfl⟩, h.fails, h.first.below, h.second.below, h.first.distinct, h.second.distinct, ?_, ?_, ?_, ?_, .inl ⟨rfl, rfl⟩, hc, ⟨rfl, rfl⟩⟩
  · rintro i j ⟨hi, rfl⟩
    exact ⟨h.first.below _ (h.live i hi).1, h.second.below _ (h.live i hi).2⟩
  · rintro i j j' ⟨_, rfl⟩ ⟨_, rfl⟩
    rfl
  · rintro i i' j ⟨hi, rfl⟩ ⟨hi', he⟩
    exact h.inj i hi i' hi' he
  · rintro i j (⟨hi, rfl⟩ | ⟨t, rfl, rfl⟩)
    · rw [Multiset.count_eq_one_of_mem h.first.distinct (h.live i hi).1, Multiset.count_eq_one_of_mem h.second.distinct (h.live i hi).2]
      exact ⟨le_rfl, fun _ => le_rfl⟩
    · rw [Multiset.count_eq_zero_of_notMem fun hm => ?_, Multiset.count_eq_zero_of_notMem fun hm => ?_]
      · exact ⟨le_rfl, fun _ => le_rfl⟩
      · exact absurd (h.second.below _ hm) (Nat.not_lt.2 (Nat.le_add_right _ _))
      · exact absurd (h.first.below _ hm) (Nat.not_lt.2 (Nat.le_add_right _ _))

theorem names_moved (h : SameProcess ρ B w v) {i j : Nat} (hn : (twinOf x c ρ B w v).Names i j) : j = moved ρ w v i := by
  rcases hn with ⟨hi, rfl⟩ | ⟨t, rfl, rfl⟩
  · rw [moved, if_pos (h.first.below _ (h.live i hi).1)]
  · show v.clock + t = moved ρ w v (w.clock + t)
    rw [moved, if_neg (Nat.not_lt.2 (Nat.le_add_right _ _)), Nat.add_sub_cancel_left]

theorem names_of_mem (h : SameProcess ρ B w v) {i : Nat} (hi : i ∈ B ∨ w.clock ≤ i) : (twinOf x c ρ B w v).Names i (moved ρ w v i) := by
  by_cases hb : i ∈ B
  · rw [moved, if_pos (h.first.below _ (h.live i hb).1)]
    exact .inl ⟨hb, rfl⟩
  · have hc := hi.resolve_left hb
    rw [moved, if_neg (Nat.not_lt.2 hc)]
    exact .inr ⟨i - w.clock, (Nat.add_sub_cancel' hc).symm, rfl⟩

theorem twin_end (h : SameProcess ρ B w v) (hx : x) (hw : (twinOf x c ρ B w v).Worlds w' v') : SameAfter ρ B w v (moved ρ w v) w' v' := by
  obtain ⟨t, ht1, ht2⟩ := hw.clock
  have ht1 : w'.clock = w.clock + t := ht1
  have ht2 : v'.clock = v.clock + t := ht2
  refine ⟨fun i hi => by rw [moved, if_pos (h.first.below _ (h.live i hi).1)], ⟨⟨hw.nodup1, hw.below1⟩, ⟨hw.nodup2, hw.below2⟩, fun s c => ?_, fun i hi => ⟨hi.1, ?_⟩, fun i hi j hj he => ?_⟩,
    fun j hj hb => ?_, ⟨by omega, by omega⟩, hw.err⟩
  · rw [ht1, ht2, Nat.add_assoc, Nat.add_assoc]
    exact hw.fails (t + s) c
  · exact hw.mem (names_of_mem (x := x) (c := c) h hi.2) hi.1
  · have h1 := names_of_mem (x := x) (c := c) h hi.2
    have h2 := names_of_mem (x := x) (c := c) h hj.2
    rw [← he] at h2
    exact hw.inj' h1 h2
  · obtain ⟨i, hn⟩ : ∃ i, (twinOf x c ρ B w v).Names i j := by
      rcases hb with ⟨i, hi, rfl⟩ | hb
      · exact ⟨i, .inl ⟨hi, rfl⟩⟩
      · exact ⟨w.clock + (j - v.clock), .inr ⟨j - v.clock, rfl, (Nat.add_sub_cancel' hb).symm⟩⟩
    refine ⟨i, ?_, (names_moved h hn).symm⟩
    rw [← Multiset.count_pos] at hj ⊢
    exact lt_of_lt_of_le hj ((hw.live i j hn).2 hx)

/-! ### Objects -/

theorem ptr_rename {α : Type} (h : SameProcess ρ B w v) {p : Option (Blk α)} (hp : ∀ i ∈ ptrIds p, i ∈ B) : PtrAlike (twinOf x c ρ B w v) p (renamePtr ρ p) := by
  cases p with
  | none => exact .null
  | some b =>
    obtain ⟨i, b⟩ := b
    exact .ptr (.inl ⟨hp i (List.mem_singleton.2 rfl), rfl⟩)

theorem obj_rename (h : SameProcess ρ B w v) {ob : ClObj} (hp : ∀ i ∈ ob.blocks, i ∈ B) : ClObjAlike (twinOf x c ρ B w v) ob (ob.rename ρ) := by
  obtain ⟨i, ver, n, k, l, e⟩ := ob
  exact .mk (.inl ⟨hp i List.mem_cons_self, rfl⟩) (.mk (ptr_rename h fun j hj => hp j (List.mem_cons_of_mem _ hj)))

theorem optObj_rename (h : SameProcess ρ B w v) {p : Option ClObj} (hp : ∀ ob ∈ p, ∀ i ∈ ob.blocks, i ∈ B) : ObjAlike (twinOf x c ρ B w v) p (p.map (ClObj.rename ρ)) := by
  cases p with
  | none => exact .none
  | some ob => exact .some (obj_rename h (hp ob rfl))

theorem alike_obj (h : SameProcess ρ B w v) {p q : ClObj} (hp : ClObjAlike (twinOf x c ρ B w v) p q) : q = p.rename (moved ρ w v) := by
  obtain ⟨hn, hc⟩ := hp
  obtain ⟨hl⟩ := hc
  cases hl with
  | null => rw [names_moved h hn]; rfl
  | ptr hl => rw [names_moved h hn, names_moved h hl]; rfl

theorem alike_optObj (h : SameProcess ρ B w v) {p q : Option ClObj} (hp : ObjAlike (twinOf x c ρ B w v) p q) : q = p.map (ClObj.rename (moved ρ w v)) := by
  cases hp with
  | none => rfl
  | some hp => rw [alike_obj h hp]; rfl

theorem alike_objs (h : SameProcess ρ B w v) {l l' : List ClObj} (hp : List.Forall₂ (ClObjAlike (twinOf x c ρ B w v)) l l') : l' = l.map (ClObj.rename (moved ρ w v)) := by
  induction hp with
  | nil => rfl
  | cons hp _ ih => rw [alike_obj h hp, ih]; rfl

theorem objs_rename (h : SameProcess ρ B w v) {l : List ClObj} (hp : ∀ ob ∈ l, ∀ i ∈ ob.blocks, i ∈ B) : List.Forall₂ (ClObjAlike (twinOf x c ρ B w v)) l (l.map (ClObj.rename ρ)) := by
  induction l with
  | nil => exact .nil
  | cons ob l ih => exact .cons (obj_rename h (hp ob List.mem_cons_self)) (ih fun o ho => hp o (List.mem_cons_of_mem _ ho))

theorem rename_contents (ρ : Nat → Nat) (ob : ClObj) : (ob.rename ρ).contents = ob.contents := by
  obtain ⟨i, ver, n, k, l, e⟩ := ob
  cases l <;> rfl

/-- Objects with the same contents are the same apart from addresses. -/
theorem process_of_contents {p q : ClObj} (hw : w.Ordinary) (hv : v.Ordinary) (hf : SameFailures w v) (hp : {p.id} + ptrOwn p.cl.label ≤ w.live) (hq : {q.id} + ptrOwn q.cl.label ≤ v.live)
    (h : p.contents = q.contents) : ∃ ρ, SameProcess ρ {i | i ∈ p.blocks} w v ∧ q = p.rename ρ := by
  have dp := Multiset.nodup_of_le hp hw.distinct
  have dq := Multiset.nodup_of_le hq hv.distinct
  obtain ⟨i, ver, n, k, l, e⟩ := p
  obtain ⟨j, ver', n', k', l', e'⟩ := q
  simp only [ClObj.contents, Prod.mk.injEq] at h
  obtain ⟨rfl, rfl, rfl, hl, rfl⟩ := h
  have hp : {i} + ptrOwn l ≤ w.live := hp
  have hq : {j} + ptrOwn l' ≤ v.live := hq
  have dp : ({i} + ptrOwn l).Nodup := dp
  have dq : ({j} + ptrOwn l').Nodup := dq
  cases l with
  | none =>
    cases l' with
    | some l' => cases hl
    | none =>
      refine ⟨fun _ => j, ⟨hw, hv, hf, fun x hx => ?_, fun x hx y hy _ => ?_⟩, rfl⟩
      · rw [List.mem_singleton.1 hx]
        exact ⟨Multiset.mem_of_le hp (by simp), Multiset.mem_of_le hq (by simp)⟩
      · rw [List.mem_singleton.1 hx, List.mem_singleton.1 hy]
  | some l =>
    cases l' with
    | none => cases hl
    | some l' =>
      obtain ⟨a, b⟩ := l
      obtain ⟨a', b'⟩ := l'
      cases hl
      have hia : i ≠ a := by rintro rfl; simp [ptrOwn] at dp
      have hja : j ≠ a' := by rintro rfl; simp [ptrOwn] at dq
      refine ⟨fun x => if x = i then j else a', ⟨hw, hv, hf, fun x hx => ?_, fun x hx y hy hxy => ?_⟩, ?_⟩
      · rcases List.mem_cons.1 hx with rfl | hx
        · rw [if_pos rfl]
          exact ⟨Multiset.mem_of_le hp (by simp), Multiset.mem_of_le hq (by simp)⟩
        · rw [List.mem_singleton.1 hx]
          dsimp only
          rw [if_neg hia.symm]
          exact ⟨Multiset.mem_of_le hp (by simp [ptrOwn]), Multiset.mem_of_le hq (by simp [ptrOwn])⟩
      · rcases List.mem_cons.1 hx with rfl | hx
        · rcases List.mem_cons.1 hy with rfl | hy
          · rfl
          · rw [List.mem_singleton.1 hy] at hxy ⊢
            dsimp only at hxy
            rw [if_pos rfl, if_neg hia.symm] at hxy
            exact absurd hxy hja
        · rcases List.mem_cons.1 hy with rfl | hy
          · rw [List.mem_singleton.1 hx] at hxy ⊢
            dsimp only at hxy
            rw [if_pos rfl, if_neg hia.symm] at hxy
            exact absurd hxy.symm hja
          · rw [List.mem_singleton.1 hx, List.mem_singleton.1 hy]
      · show (⟨j, ver, n, k, some ⟨a', b⟩, e⟩ : ClObj) = ⟨if i = i then j else a', ver, n, k, some ⟨if a = i then j else a', b⟩, e⟩
        rw [if_pos rfl, if_neg hia.symm]

/-! ### Histories -/

section ops

variable {T : Twin}

theorem alike_getElem {l l' : List ClObj} (h : List.Forall₂ (ClObjAlike T) l l') (i : Nat) : ObjAlike T l[i]? l'[i]? := by
  induction h generalizing i with
  | nil => exact .none
  | cons h _ ih => cases i with
    | zero => exact .some h
    | succ i => exact ih i

theorem alike_set {l l' : List ClObj} (h : List.Forall₂ (ClObjAlike T) l l') (i : Nat) {p q : Option ClObj} (hp : ObjAlike T p q) : List.Forall₂ (ClObjAlike T) (putBack l i p) (putBack l' i q) := by
  cases hp with
  | none => exact h
  | some hp =>
    show List.Forall₂ _ (l.set i _) (l'.set i _)
    induction h generalizing i with
    | nil => exact .nil
    | cons h ht ih => cases i with
      | zero => exact .cons hp ht
      | succ i => exact .cons h (ih i)

theorem alike_append {l l' : List ClObj} (h : List.Forall₂ (ClObjAlike T) l l') {p q : Option ClObj} (hp : ObjAlike T p q) : List.Forall₂ (ClObjAlike T) (l ++ p.toList) (l' ++ q.toList) := by
  refine List.rel_append h ?_
  cases hp with
  | none => exact .nil
  | some hp => exact .cons hp .nil

theorem alike_eraseIdx {l l' : List ClObj} (h : List.Forall₂ (ClObjAlike T) l l') (i : Nat) : List.Forall₂ (ClObjAlike T) (l.eraseIdx i) (l'.eraseIdx i) := by
  induction h generalizing i with
  | nil => exact .nil
  | cons h ht ih => cases i with
    | zero => exact ht
    | succ i => exact .cons h (ih i)

theorem alike_relabel {p q : Option ClObj} (h : ObjAlike T p q) (b : Buf Int) : ObjAlike T (p.map fun ob => ob.relabel b) (q.map fun ob => ob.relabel b) := by
  cases h with
  | none => exact .none
  | some h =>
    obtain ⟨hi, hc⟩ := h
    obtain ⟨hl⟩ := hc
    cases hl with
    | null => exact .some (.mk hi (.mk .null))
    | ptr hl => exact .some (.mk hi (.mk (.ptr hl)))

end ops

theorem same_opRename (cfg : Cfg) (h : SameProcess ρ B w v) {op : Op F} (hr : op.Repeatable) (hb : ∀ i ∈ op.blocks, i ∈ B) {l l' : List ClObj} (hl : List.Forall₂ (ClObjAlike (twinOf x c ρ B w v)) l l') :
    (twinOf x c ρ B w v).Same (PairAlike Eq (List.Forall₂ (ClObjAlike (twinOf x c ρ B w v)))) (op.run cfg l) ((op.rename ρ).run cfg l') := by
  cases op with
  | initEmpty n p o => exact same_bind (same_initEmpty cfg n o (ptr_rename h hb)) fun _ _ hp => same_pure ⟨hp.1, alike_append hl hp.2⟩
  | initExisting n k p d o => exact same_bind (same_initExisting cfg n k d o (ptr_rename h hb)) fun _ _ hp => same_pure ⟨hp.1, alike_append hl hp.2⟩
  | copy i o => exact same_bind (same_copyClustering cfg o (alike_getElem hl i)) fun _ _ hp => same_pure ⟨hp.1, alike_append hl hp.2⟩
  | free i => exact same_bind (same_freeClustering (alike_getElem hl i)) fun _ _ _ => same_pure ⟨rfl, alike_eraseIdx hl i⟩
  | info i => exact same_bind (same_getInfo cfg (alike_getElem hl i)) fun _ _ hp => same_pure ⟨by rw [hp], hl⟩
  | getLabels i len out => exact same_bind (same_getLabels cfg len out (alike_getElem hl i)) fun _ _ hp => same_pure ⟨by rw [hp], hl⟩
  | check i o out => exact same_bind (same_checkClustering cfg o out (alike_getElem hl i)) fun _ _ hp => same_pure ⟨by rw [hp], hl⟩
  | cluster i spi o => exact same_bind (same_scClustering cfg (hr _).some o (alike_getElem hl i)) fun _ _ hp => same_pure ⟨hp.1, alike_set hl i hp.2⟩
  | hierarchical i hi spi S b => exact same_bind (same_hierarchical cfg hi (hr _).some S b (alike_getElem hl i)) fun _ _ hp => same_pure ⟨hp.1, alike_set hl i hp.2⟩
  | stats i spi out => exact same_bind (same_getStats cfg (hr _).some out (alike_getElem hl i)) fun _ _ hp => same_pure ⟨by rw [hp], hl⟩
  | write i b => exact same_pure ⟨rfl, alike_set hl i (alike_relabel (alike_getElem hl i) b)⟩

theorem same_runOps (cfg : Cfg) (h : SameProcess ρ B w v) {ops : List (Op F)} (hr : ∀ op ∈ ops, op.Repeatable) (hb : ∀ op ∈ ops, ∀ i ∈ op.blocks, i ∈ B) {l l' : List ClObj}
    (hl : List.Forall₂ (ClObjAlike (twinOf x c ρ B w v)) l l') :
    (twinOf x c ρ B w v).Same (PairAlike Eq (List.Forall₂ (ClObjAlike (twinOf x c ρ B w v)))) (runOps cfg ops l) (runOps cfg (ops.map (Op.rename ρ)) l') := by
  induction ops generalizing l l' with
  | nil => exact same_pure ⟨rfl, hl⟩
  | cons op ops ih =>
    refine same_bind (same_opRename cfg h (hr op List.mem_cons_self) (hb op List.mem_cons_self) hl) fun x y hxy => ?_
    refine same_bind (ih (fun o ho => hr o (List.mem_cons_of_mem _ ho)) (fun o ho => hb o (List.mem_cons_of_mem _ ho)) hxy.2) fun a b hab => same_pure ⟨?_, hab.2⟩
    rw [hxy.1, hab.1]

end Scc
