/-
The invariant of histories with shared label arrays.
-/
import Verif.Spec.Shared
import Verif.Proofs.Grow
import Verif.Proofs.History

set_option linter.unusedSimpArgs false
set_option linter.unusedVariables false

namespace Scc

variable {F : Type} [FloatOps F]

/-- The labels of an object in an array of the client are the contents of the array. -/
def Coherent (arr : Arrays) (ob : ClObj) : Prop := ob.cl.external = true → ∀ lb, ob.cl.label = some lb → lb.buf = arr lb.id

structure SharedInv (cfg : Cfg) (U : Multiset Nat) (c : Client) (w : World) : Prop where
  inv : Inv cfg U c.objs w
  coh : ∀ ob ∈ c.objs, Coherent c.arr ob

theorem ClObj.seen_internal {arr : Arrays} {ob : ClObj} (h : ob.cl.external = false) : ob.seen arr = ob := by unfold ClObj.seen; rw [if_neg (by simp [h])]

theorem ClObj.seen_external {arr : Arrays} {ob : ClObj} {lb : Blk Int} (h : ob.cl.external = true) (hl : ob.cl.label = some lb) :
    ob.seen arr = { ob with cl := { ob.cl with label := some ⟨lb.id, arr lb.id⟩ } } := by unfold ClObj.seen; rw [if_pos h, hl]; rfl

theorem ClObj.seen_none {arr : Arrays} {ob : ClObj} (hl : ob.cl.label = none) : ob.seen arr = ob := by
  obtain ⟨id, v, n, k, l, x⟩ := ob
  dsimp only at hl
  subst hl
  unfold ClObj.seen
  split <;> rfl

theorem Coherent.seen {arr : Arrays} {ob : ClObj} (h : Coherent arr ob) : ob.seen arr = ob := by
  cases hx : ob.cl.external with
  | false => exact ob.seen_internal hx
  | true =>
    cases hl : ob.cl.label with
    | none => exact ob.seen_none hl
    | some lb =>
      rw [ob.seen_external hx hl, ← h hx lb hl]
      obtain ⟨id, v, n, k, l, x⟩ := ob
      dsimp only at hl
      subst hl
      rfl

/-- What does not depend on the contents of arrays. -/
theorem ClObj.seen_same (arr : Arrays) (ob : ClObj) :
    (ob.seen arr).id = ob.id ∧ (ob.seen arr).cl.n = ob.cl.n ∧ (ob.seen arr).cl.numClusters = ob.cl.numClusters ∧ (ob.seen arr).cl.external = ob.cl.external ∧ (ob.seen arr).array = ob.array ∧
      (ob.seen arr).own = ob.own := by
  cases hx : ob.cl.external with
  | false => rw [ob.seen_internal hx]; simp [hx]
  | true =>
    cases hl : ob.cl.label with
    | none => rw [ob.seen_none hl]; simp [hx]
    | some lb => rw [ob.seen_external hx hl]; simp [ClObj.array, ClObj.own, hx, hl]

theorem coherent_seen (arr : Arrays) (ob : ClObj) : Coherent arr (ob.seen arr) := by
  intro hx lb hlb
  rw [(ob.seen_same arr).2.2.2.1] at hx
  cases hl : ob.cl.label with
  | none => rw [ob.seen_none hl, hl] at hlb; cases hlb
  | some lb' => rw [ob.seen_external hx hl] at hlb; cases hlb; rfl

theorem owned_seen (arr : Arrays) (objs : List ClObj) : owned (objs.map (ClObj.seen arr)) = owned objs := by
  unfold owned
  rw [List.map_map]
  congr 1
  exact List.map_congr_left fun ob _ => (ob.seen_same arr).2.2.2.2.2

theorem fine_seen {cfg : Cfg} {U : Multiset Nat} {arr : Arrays} {ob : ClObj} (h : Fine cfg U ob)
    (hg : ob.cl.external = true → ∀ lb, ob.cl.label = some lb → (arr lb.id).len = lb.buf.len ∧ (0 < ob.cl.numClusters → Filled (arr lb.id) ob.cl.n)) : Fine cfg U (ob.seen arr) := by
  cases hx : ob.cl.external with
  | false => rw [ob.seen_internal hx]; exact h
  | true =>
    cases hl : ob.cl.label with
    | none => rw [ob.seen_none hl]; exact h
    | some lb =>
      obtain ⟨g1, g2⟩ := hg hx lb hl
      obtain ⟨f1, f2⟩ := h.label lb hl
      obtain ⟨i1, i2, i3, i4, i5⟩ := isInitialized_iff.1 h.init
      rw [ob.seen_external hx hl]
      refine ⟨isInitialized_iff.2 ⟨i1, i2, i3, i4, fun _ => nofun⟩, fun lb' hlb' => ?_, fun hk lb' hlb' => ?_⟩
      · cases hlb'
        exact ⟨by dsimp only; rw [g1]; exact f1, fun _ => f2 hx⟩
      · cases hlb'
        exact g2 hk

/-- Arrays that grew under the objects that use them. -/
theorem SharedInv.of_grown {cfg : Cfg} {U : Multiset Nat} {objs : List ClObj} {arr : Arrays} {w : World} (hi : Inv cfg U objs w)
    (hg : ∀ ob ∈ objs, ob.cl.external = true → ∀ lb, ob.cl.label = some lb → (arr lb.id).len = lb.buf.len ∧ (0 < ob.cl.numClusters → Filled (arr lb.id) ob.cl.n)) :
    SharedInv cfg U ⟨arr, objs.map (ClObj.seen arr)⟩ w := by
  refine ⟨⟨by rw [owned_seen]; exact hi.live, fun ob hob => ?_⟩, fun ob hob => ?_⟩
  · obtain ⟨ob', h1, rfl⟩ := List.mem_map.1 hob
    exact fine_seen (hi.fine ob' h1) (hg ob' h1)
  · obtain ⟨ob', h1, rfl⟩ := List.mem_map.1 hob
    exact coherent_seen arr ob'

theorem Filled.grows {b b' : Buf Int} {n : Nat} (h : Filled b n) (hg : Grows b b') : Filled b' n := fun v hv => hg.get v (h v hv)

/-- A call that stores no labels. -/
theorem SharedInv.of_same {cfg : Cfg} {U : Multiset Nat} {objs : List ClObj} {arr : Arrays} {w : World} (hi : Inv cfg U objs w) (hc : ∀ ob ∈ objs, Coherent arr ob) :
    SharedInv cfg U ⟨arr, objs.map (ClObj.seen arr)⟩ w :=
  .of_grown hi fun ob hob hx lb hl => ⟨by rw [← hc ob hob hx lb hl], fun hk => by rw [← hc ob hob hx lb hl]; exact (hi.fine ob hob).filled hk lb hl⟩

/-- The contents of the arrays after a call on an object. -/
theorem arrays_after {arr : Arrays} {cl : Clustering} {cl' : Clustering} {id : Nat} (hcoh : Coherent arr ⟨id, cl⟩) (hk : Kept cl cl') :
    (∀ a, Grows (arr a) (arr.after ⟨id, cl'⟩ a)) ∧ (∀ a, (ClObj.mk id cl).array ≠ some a → arr.after ⟨id, cl'⟩ a = arr a) ∧ Coherent (arr.after ⟨id, cl'⟩) ⟨id, cl'⟩ ∧
      ((ClObj.mk id cl').array = none ∨ (ClObj.mk id cl').array = (ClObj.mk id cl).array) := by
  unfold Arrays.after Coherent
  dsimp only at hcoh ⊢
  cases hx : cl'.external with
  | false =>
    have : (ClObj.mk id cl').array = none := by unfold ClObj.array; simp [hx]
    rw [this]
    exact ⟨fun a => Grows.refl _, fun _ _ => rfl, nofun, Or.inl rfl⟩
  | true =>
    cases hl' : cl'.label with
    | none =>
      have : (ClObj.mk id cl').array = none := by unfold ClObj.array; simp [hx, hl']
      rw [this]
      exact ⟨fun a => Grows.refl _, fun _ _ => rfl, fun _ _ => nofun, Or.inl rfl⟩
    | some lb' =>
      have harr : (ClObj.mk id cl').array = some lb'.id := by unfold ClObj.array; simp [hx, hl']
      rw [harr]
      dsimp only
      cases hl : cl.label with
      | none =>
        rcases hk.new hl with h | h
        · rw [hl'] at h; cases h
        · rw [hx] at h; cases h
      | some lb =>
        obtain ⟨⟨b, hb, hg⟩, he⟩ := hk.old lb hl
        rw [hl'] at hb
        cases hb
        dsimp only
        have hx0 : cl.external = true := by rw [← he]; exact hx
        have hcur := hcoh hx0 lb hl
        have harr0 : (ClObj.mk id cl).array = some lb.id := by unfold ClObj.array; simp [hx0, hl]
        refine ⟨fun a => ?_, fun a ha => ?_, fun _ lb2 h2 => ?_, Or.inr harr0.symm⟩
        · by_cases e : a = lb.id
          · subst e; rw [Function.update_self, ← hcur]; exact hg
          · rw [Function.update_of_ne e]; exact Grows.refl _
        · rw [Function.update_of_ne]
          rintro rfl
          exact ha harr0
        · cases h2
          dsimp only
          rw [Function.update_self]

/-- A call that stores labels through object `i`. -/
theorem SharedInv.of_kept {cfg : Cfg} {U : Multiset Nat} {c : Client} {w w' : World} (hs : SharedInv cfg U c w) {i : Nat} {ob : ClObj} (hob : c.objs[i]? = some ob) {cl' : Clustering}
    (hk : Kept ob.cl cl') (hi : Inv cfg U (c.objs.set i ⟨ob.id, cl'⟩) w') :
    SharedInv cfg U ⟨c.arr.after ⟨ob.id, cl'⟩, (c.objs.set i ⟨ob.id, cl'⟩).map (ClObj.seen (c.arr.after ⟨ob.id, cl'⟩))⟩ w' := by
  obtain ⟨h1, h2, h3, -⟩ := arrays_after (arr := c.arr) (id := ob.id) (cl := ob.cl) (hs.coh ob (List.mem_of_getElem? hob)) hk
  refine .of_grown hi fun ob2 hm hx lb hl => ?_
  rcases List.mem_or_eq_of_mem_set hm with hm' | rfl
  · have hc := hs.coh ob2 hm' hx lb hl
    have hg := h1 lb.id
    rw [← hc] at hg
    exact ⟨hg.len, fun hk2 => ((hs.inv.fine ob2 hm').filled hk2 lb hl).grows hg⟩
  · rw [← h3 hx lb hl]
    exact ⟨rfl, fun hk2 => (hi.fine _ hm).filled hk2 lb hl⟩

theorem par_initEmpty {cfg : Cfg} {n : Nat} {labels : Option (Blk Int)} {hasOut : Bool} : Par (initEmpty cfg n labels hasOut) fun r => ∀ ob, r.2 = some ob → ob.cl.label = labels := by
  unfold initEmpty
  split
  · exact .skip fun _ => Par.pure nofun
  · split
    · exact .skip fun _ => Par.pure nofun
    · split
      · exact .skip fun _ => Par.pure nofun
      · split
        · exact .skip fun _ => Par.pure nofun
        · refine .skip fun p => ?_
          cases p with
          | none => exact .skip fun _ => Par.pure nofun
          | some b => exact Par.pure (by rintro ob h; cases h; rfl)

theorem par_initExisting {cfg : Cfg} {n k : Nat} {labels : Option (Blk Int)} {deep hasOut : Bool} :
    Par (initExisting cfg n k labels deep hasOut) fun r => ∀ ob, r.2 = some ob → ob.cl.external = true → ob.cl.label = labels := by
  unfold initExisting
  split
  · exact .skip fun _ => Par.pure nofun
  · split
    · exact .skip fun _ => Par.pure nofun
    · split
      · exact .skip fun _ => Par.pure nofun
      · split
        · exact .skip fun _ => Par.pure nofun
        · split
          · exact .skip fun _ => Par.pure nofun
          · split
            · exact .skip fun _ => Par.pure nofun
            · split
              · exact .skip fun _ => Par.pure nofun
              · split
                · exact .skip fun _ => Par.pure nofun
                · refine .skip fun p => ?_
                  cases p with
                  | none => exact .skip fun _ => Par.pure nofun
                  | some b =>
                    dsimp only
                    split
                    · refine .skip fun q => ?_
                      cases q with
                      | none => exact .skip fun _ => .skip fun _ => Par.pure nofun
                      | some dst => exact .skip fun _ => Par.pure (by rintro ob h; cases h; exact nofun)
                    · exact Par.pure (by rintro ob h; cases h; exact fun _ => rfl)

theorem par_copy {cfg : Cfg} {p : Option ClObj} {hasOut : Bool} : Par (copyClustering cfg p hasOut) fun r => ∀ ob, r.2 = some ob → ob.cl.external = false := by
  unfold copyClustering
  split
  · exact .skip fun _ => Par.pure nofun
  · refine .skip fun valid => ?_
    split
    · refine .skip fun q => ?_
      cases q with
      | none => exact .skip fun _ => Par.pure nofun
      | some b =>
        dsimp only
        split
        · refine .skip fun q => ?_
          cases q with
          | none => exact .skip fun _ => .skip fun _ => Par.pure nofun
          | some dst => exact .skip fun _ => Par.pure (by rintro ob h; cases h; rfl)
        · exact Par.pure (by rintro ob h; cases h; rfl)
    · exact .skip fun _ => Par.pure nofun

theorem bind_pure_some {α β : Type} {x : M α} {f : α → β} {w w' : World} {b : β} (h : (do let r ← x; pure (f r)) w = some (b, w')) : ∃ r w1, x w = some (r, w1) ∧ f r = b ∧ w1 = w' := by
  obtain ⟨p, h1, h2⟩ := Option.bind_eq_some_iff.1 h
  simp only [pure, StateT.pure, Option.some.injEq, Prod.mk.injEq] at h2
  exact ⟨p.1, p.2, h1, h2.1, h2.2⟩

theorem mem_append_toList {objs : List ClObj} {p : Option ClObj} {ob : ClObj} (h : ob ∈ objs ++ p.toList) : ob ∈ objs ∨ p = some ob := by
  rcases List.mem_append.1 h with h | h
  · exact Or.inl h
  · exact Or.inr (by cases p with
      | none => simp at h
      | some x => rw [Option.toList_some, List.mem_singleton] at h; rw [h])

/-- An action of either kind keeps the invariant. -/
theorem shared_step {cfg : Cfg} (hcfg : cfg.Valid) {U : Multiset Nat} {c : Client} {w : World} (hs : SharedInv cfg U c w) (op : SharedOp F) (ha : op.Allowed cfg U c w) :
    ∃ e c' w', op.run cfg c w = some ((e, c'), w') ∧ SharedInv cfg U c' w' := by
  cases op with
  | store a b =>
    obtain ⟨-, h2, h3⟩ := ha
    refine ⟨_, _, _, rfl, .of_grown hs.inv fun ob hob hx lb hl => ?_⟩
    by_cases e : lb.id = a
    · subst e
      rw [Function.update_self, hs.coh ob hob hx lb hl]
      exact ⟨h2, h3 ob hob (by unfold ClObj.array; simp [hx, hl])⟩
    · rw [Function.update_of_ne e, ← hs.coh ob hob hx lb hl]
      exact ⟨rfl, fun hk => (hs.inv.fine ob hob).filled hk lb hl⟩
  | call op =>
    obtain ⟨ha, hcur⟩ := ha
    obtain ⟨⟨e, objs'⟩, w', hr, hp⟩ := step_ok hcfg hs.inv op ha
    have hinv := hp.inv
    dsimp only at hinv
    refine ⟨e, ⟨c.arraysAfter op objs', objs'.map (ClObj.seen (c.arraysAfter op objs'))⟩, w', ?_, ?_⟩
    · show (op.run cfg c.objs w).bind _ = _
      rw [hr]
      rfl
    have hnone : op.target = none → (∀ ob ∈ objs', Coherent c.arr ob) → SharedInv cfg U ⟨c.arraysAfter op objs', objs'.map (ClObj.seen (c.arraysAfter op objs'))⟩ w' := by
      intro ht hco
      have : c.arraysAfter op objs' = c.arr := by unfold Client.arraysAfter; rw [ht]
      rw [this]
      exact .of_same hinv hco
    have hsome : ∀ i, op.target = some i → (∀ ob, c.objs[i]? = some ob → ∃ cl', objs' = c.objs.set i ⟨ob.id, cl'⟩ ∧ Kept ob.cl cl') → (c.objs[i]? = none → objs' = c.objs) →
        SharedInv cfg U ⟨c.arraysAfter op objs', objs'.map (ClObj.seen (c.arraysAfter op objs'))⟩ w' := by
      intro i ht h1 h2
      cases hob : c.objs[i]? with
      | none =>
        have e := h2 hob
        have : c.arraysAfter op objs' = c.arr := by unfold Client.arraysAfter; rw [ht]; dsimp only; rw [e, hob]
        rw [this]
        exact .of_same hinv (by rw [e]; exact hs.coh)
      | some ob =>
        obtain ⟨cl', e, hk⟩ := h1 ob hob
        have hlt : i < c.objs.length := (List.getElem?_eq_some_iff.1 hob).1
        have : c.arraysAfter op objs' = c.arr.after ⟨ob.id, cl'⟩ := by unfold Client.arraysAfter; rw [ht]; dsimp only; rw [e, List.getElem?_set_self hlt]
        rw [this]
        subst e
        exact hs.of_kept hob hk hinv
    cases op with
    | initEmpty n labels hasOut =>
      refine hnone rfl fun ob hob => ?_
      obtain ⟨r, w1, h1, h2, -⟩ := bind_pure_some hr
      cases h2
      rcases mem_append_toList hob with h | h
      · exact hs.coh ob h
      · intro _ lb hlb
        exact hcur lb (by rw [← hlb]; exact (par_initEmpty w r w1 h1 ob h).symm)
    | initExisting n k labels deep hasOut =>
      refine hnone rfl fun ob hob => ?_
      obtain ⟨r, w1, h1, h2, -⟩ := bind_pure_some hr
      cases h2
      rcases mem_append_toList hob with h | h
      · exact hs.coh ob h
      · intro hx lb hlb
        exact hcur lb (by rw [← hlb]; exact (par_initExisting w r w1 h1 ob h hx).symm)
    | copy i hasOut =>
      refine hnone rfl fun ob hob => ?_
      obtain ⟨r, w1, h1, h2, -⟩ := bind_pure_some hr
      cases h2
      rcases mem_append_toList hob with h | h
      · exact hs.coh ob h
      · intro hx
        rw [par_copy w r w1 h1 ob h] at hx
        cases hx
    | free i =>
      refine hnone rfl fun ob hob => ?_
      obtain ⟨r, w1, h1, h2, -⟩ := bind_pure_some (f := fun _ => (ErrorCode.ok, c.objs.eraseIdx i)) hr
      cases h2
      exact hs.coh ob (List.mem_of_mem_eraseIdx hob)
    | info i =>
      refine hnone rfl fun ob hob => ?_
      obtain ⟨r, w1, h1, h2, -⟩ := bind_pure_some hr
      cases h2
      exact hs.coh ob hob
    | getLabels i len out =>
      refine hnone rfl fun ob hob => ?_
      obtain ⟨r, w1, h1, h2, -⟩ := bind_pure_some hr
      cases h2
      exact hs.coh ob hob
    | check i o hasOut =>
      refine hnone rfl fun ob hob => ?_
      obtain ⟨r, w1, h1, h2, -⟩ := bind_pure_some hr
      cases h2
      exact hs.coh ob hob
    | stats i spi hasOut =>
      refine hnone rfl fun ob hob => ?_
      obtain ⟨r, w1, h1, h2, -⟩ := bind_pure_some hr
      cases h2
      exact hs.coh ob hob
    | cluster i spi o =>
      obtain ⟨r, w1, h1, h2, -⟩ := bind_pure_some hr
      cases h2
      refine hsome i rfl (fun ob hob => ?_) fun hob => ?_
      · rw [hob] at h1
        obtain ⟨cl', g1, g2⟩ := kept_scClustering w r w1 h1
        exact ⟨cl', by rw [g1]; rfl, g2⟩
      · cases h3 : r.2 with
        | none => rfl
        | some ob => exact List.set_eq_of_length_le (List.getElem?_eq_none_iff.1 hob)
    | hierarchical i hi spi S batch =>
      obtain ⟨r, w1, h1, h2, -⟩ := bind_pure_some hr
      cases h2
      refine hsome i rfl (fun ob hob => ?_) fun hob => ?_
      · rw [hob] at h1
        have hinit := (isInitialized_iff.1 (hs.inv.fine ob (List.mem_of_getElem? hob)).init).2.2.2.2
        obtain ⟨cl', g1, g2⟩ := kept_hierarchical (fun h => hinit (Nat.pos_of_ne_zero h)) w r w1 h1
        exact ⟨cl', by rw [g1]; rfl, g2⟩
      · cases h3 : r.2 with
        | none => rfl
        | some ob => exact List.set_eq_of_length_le (List.getElem?_eq_none_iff.1 hob)
    | write i b => exact hcur.elim

theorem shared_inv {cfg : Cfg} (hcfg : cfg.Valid) {U : Multiset Nat} {arr0 : Arrays} {w0 w : World} {codes : List ErrorCode} {c : Client} (h : SharedReaches F cfg U arr0 w0 codes c w) :
    SharedInv cfg U c w := by
  induction h with
  | start h => exact ⟨⟨by simp [owned, h], by simp⟩, by simp⟩
  | step op h ha hr ih =>
    obtain ⟨e, c', w', h1, h2⟩ := shared_step hcfg ih op ha
    rw [hr] at h1
    cases h1
    exact h2

/-- A call changes at most the array of the object through which it stores labels. -/
theorem arraysAfter_other {cfg : Cfg} {U : Multiset Nat} {c : Client} {w w' : World} (hs : SharedInv cfg U c w) (op : Op F) (hcur : op.Current c.arr) {e : ErrorCode} {objs' : List ClObj}
    (hr : op.run cfg c.objs w = some ((e, objs'), w')) {a : Nat} (ha : ∀ ob, op.stores c.objs = some ob → ob.array ≠ some a) : c.arraysAfter op objs' a = c.arr a := by
  have hsome : ∀ i, op.target = some i → op.stores c.objs = c.objs[i]? → (∀ ob, c.objs[i]? = some ob → ∃ cl', objs' = c.objs.set i ⟨ob.id, cl'⟩ ∧ Kept ob.cl cl') →
      (c.objs[i]? = none → objs' = c.objs) → c.arraysAfter op objs' a = c.arr a := by
    intro i ht hch h1 h2
    cases hob : c.objs[i]? with
    | none => unfold Client.arraysAfter; rw [ht]; dsimp only; rw [h2 hob, hob]
    | some ob =>
      obtain ⟨cl', e, hk⟩ := h1 ob hob
      have hlt : i < c.objs.length := (List.getElem?_eq_some_iff.1 hob).1
      have : c.arraysAfter op objs' = c.arr.after ⟨ob.id, cl'⟩ := by unfold Client.arraysAfter; rw [ht]; dsimp only; rw [e, List.getElem?_set_self hlt]
      rw [this]
      exact (arrays_after (arr := c.arr) (id := ob.id) (cl := ob.cl) (hs.coh ob (List.mem_of_getElem? hob)) hk).2.1 a (ha ob (by rw [hch, hob]))
  cases op with
  | cluster i spi o =>
    obtain ⟨r, w1, h1, h2, -⟩ := bind_pure_some hr
    cases h2
    refine hsome i rfl rfl (fun ob hob => ?_) fun hob => ?_
    · rw [hob] at h1
      obtain ⟨cl', g1, g2⟩ := kept_scClustering w r w1 h1
      exact ⟨cl', by rw [g1]; rfl, g2⟩
    · cases h3 : r.2 with
      | none => rfl
      | some ob => exact List.set_eq_of_length_le (List.getElem?_eq_none_iff.1 hob)
  | hierarchical i hi spi S batch =>
    obtain ⟨r, w1, h1, h2, -⟩ := bind_pure_some hr
    cases h2
    refine hsome i rfl rfl (fun ob hob => ?_) fun hob => ?_
    · rw [hob] at h1
      have hinit := (isInitialized_iff.1 (hs.inv.fine ob (List.mem_of_getElem? hob)).init).2.2.2.2
      obtain ⟨cl', g1, g2⟩ := kept_hierarchical (fun h => hinit (Nat.pos_of_ne_zero h)) w r w1 h1
      exact ⟨cl', by rw [g1]; rfl, g2⟩
    · cases h3 : r.2 with
      | none => rfl
      | some ob => exact List.set_eq_of_length_le (List.getElem?_eq_none_iff.1 hob)
  | write i b => exact hcur.elim
  | _ => rfl

end Scc
