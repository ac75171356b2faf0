/-
The exclusion methods with allocation, and `iscc_find_seeds`.
-/
import Verif.Proofs.SeedsExclusionMain

set_option linter.unusedSimpArgs false
set_option linter.unusedVariables false

namespace Scc

/-- What finding seeds guarantees, when the vertices are considered in an order satisfying `P`. On failure the blocks `leak`
stay allocated; there are none unless `canLeak`. -/
def SeedsPostL (cfg : Cfg) (rows : Nat → List Nat) (n : Nat) (big canLeak : Prop) (w : World) (P : List Nat → Prop) (r : Except ErrorCode SeedResult) (w' : World) : Prop :=
  match r with
  | .error e => ∃ leak : Multiset Nat, ErrPost { w with live := leak + w.live } big e w' ∧ (leak = 0 ∨ canLeak ∧ leak.card = 1)
  | .ok sr => ∃ order, P order ∧ order.Perm (List.range n) ∧ SeedInv cfg w w.live rows order sr w'

theorem SeedsPost.weaken {cfg : Cfg} {rows : Nat → List Nat} {n : Nat} {big big' canLeak : Prop} {w w' : World} {P P' : List Nat → Prop} {r : Except ErrorCode SeedResult}
    (h : SeedsPost cfg rows n big w P r w') (hb : big → big') (hP : ∀ o, P o → P' o) : SeedsPostL cfg rows n big' canLeak w P' r w' := by
  cases r with
  | error e =>
    refine ⟨0, ⟨h.fails, by rw [h.live]; simp, h.err, ?_⟩, Or.inl rfl⟩
    exact h.cause.imp (fun hx => ⟨hx.1, hb hx.2⟩) id
  | ok sr =>
    obtain ⟨o, h1, h2, h3⟩ := h
    exact ⟨o, hP o h1, h2, h3⟩

theorem SeedsPostL.order {cfg : Cfg} {rows : Nat → List Nat} {n : Nat} {big canLeak : Prop} {w w' : World} {P P' : List Nat → Prop} {r : Except ErrorCode SeedResult}
    (h : SeedsPostL cfg rows n big canLeak w P r w') (hP : ∀ o, P o → P' o) : SeedsPostL cfg rows n big canLeak w P' r w' := by
  cases r with
  | error e => exact h
  | ok sr =>
    obtain ⟨o, h1, h2, h3⟩ := h
    exact ⟨o, hP o h1, h2, h3⟩

theorem tailsToKeep_spec {n : Nat} {rows : Nat → List Nat} {i k : Nat} {ib0 ib : Buf Nat} {w : World} (L : Multiset Nat) {Q : Option (List Nat) × Option (Blk Nat) → World → Prop}
    (hl : w.live = {i} + L) (hr : ib.read k = some ((List.range n).filter (fun v => rows v ≠ []))) (hk : k = ((List.range n).filter (fun v => rows v ≠ [])).length)
    (hq : ∀ keep idx w', KeepArcs rows n keep → w'.fails = w.fails → w'.live = ptrOwn idx + L → w'.err = w.err →
      (idx = none ∨ (ptrOwn idx).card = 1 ∧ ∃ v, v < n ∧ rows v = []) → Q (keep, idx) w') :
    WpM (tailsToKeep n (some ⟨i, ib0⟩) ib k) w Q := by
  unfold tailsToKeep
  by_cases h : k = n
  · rw [if_pos h, wpM_bind]
    refine wpM_freePtr L hl fun w' h1 h2 h3 => ?_
    rw [wpM_pure]
    refine hq none none w' ?_ h1 (by simpa using h2) h3 (Or.inl rfl)
    have hlen : ((List.range n).filter (fun v => rows v ≠ [])).length = (List.range n).length := by rw [← hk, h, List.length_range]
    rw [List.length_filter_eq_length_iff] at hlen
    intro v hv
    simpa using hlen v (by simpa using hv)
  · rw [if_neg h, wpM_bind, wpM_useK]
    refine ⟨by rw [hl]; simp [ptrIds], ?_⟩
    rw [wp_eq hr, wpM_pure]
    refine hq _ _ w rfl rfl hl rfl (Or.inr ⟨rfl, ?_⟩)
    by_contra hx
    push Not at hx
    apply h
    rw [hk, List.filter_eq_self.2 (fun v hv => by simpa using hx v (by simpa using hv)), List.length_range]

/-- The exclusion methods. When the second allocation fails, the code goes on with a freed block and a
NULL pointer, so that case is excluded. -/
theorem findSeedsExclusion_spec {cfg : Cfg} {nng : Digraph} {rows : Nat → List Nat} {w : World} (updating : Bool) (cap : Nat)
    (h : nng.Repr cfg rows) (hl : ∀ i ∈ nng.ids, i ∈ w.live) (hw : w.UncheckedOk) :
    WpM (findSeedsExclusion cfg nng updating cap) w
      (SeedsPostL cfg rows nng.n (ExclBig cfg rows nng.n ∨ cfg.clabelMax < nng.n) (∃ v, v < nng.n ∧ rows v = []) w (ExclusionOrder cfg.stableSeeds updating rows nng.n)) := by
  unfold findSeedsExclusion
  rw [wpM_bind]
  refine wpM_alloc (fun w1 hf k1 k3 k4 => ?_) (fun i w1 k1 k3 k4 => ?_)
  · exact wpM_fail fun w2 m1 m2 m3 => ⟨0, ⟨by rw [m1, k1], by rw [m2, k3]; simp, by rw [m3], Or.inr ⟨rfl, hf⟩⟩, Or.inl rfl⟩
  · dsimp only
    rw [wpM_bind]
    refine wpM_allocU (by intro x; rw [k1]; exact hw x) (fun j w2 l1 l3 l4 => ?_)
    · unfold noIndexArray
      dsimp only
      rw [wpM_bind, wpM_pure, wpM_bind, wpM_useK]
      refine ⟨?_, ?_⟩
      · rw [l3, k3]
        intro x hx
        simp only [List.cons_append, List.mem_cons, List.mem_append, ptrIds, List.not_mem_nil, or_false, List.nil_append] at hx
        simp only [Multiset.mem_add, Multiset.mem_singleton]
        rcases hx with hx | hx | hx
        · exact Or.inr (Or.inl hx)
        · exact Or.inl hx
        · exact Or.inr (Or.inr (hl x hx))
      refine (notExcludedK_spec h.csr rfl rfl).mono ?_
      rintro ⟨neb, ib, k⟩ ⟨a1, a2, a3⟩
      dsimp only at a1 a2 a3 ⊢
      rw [wpM_bind]
      refine tailsToKeep_spec ({i} + w.live) (by rw [l3, k3]) a2 a3 fun keep idx w3 b1 b2 b3 b4 b5 => ?_
      dsimp only
      rw [wpM_bind]
      have hfail : w3.fails = w.fails := by rw [b2, l1, k1]
      refine (exclusionGraph_spec h (fun x hx => ?_) b1).mono ?_
      · rw [b3]; exact Multiset.mem_add.2 (Or.inr (Multiset.mem_add.2 (Or.inr (hl x hx))))
      rintro (e | ex) w4 hg
      · dsimp only
        rw [wpM_bind]
        refine wpM_freeId (ptrOwn idx + w.live) (by rw [hg.live, b3]; abel) fun w5 m1 m2 m3 => ?_
        rw [wpM_pure]
        refine ⟨ptrOwn idx, ⟨by rw [m1, hg.fails, hfail], m2, by rw [m3]; exact hg.err, hg.cause.imp (fun hx => ⟨hx.1, Or.inl hx.2⟩) (fun hx => ⟨hx.1, ?_⟩)⟩, ?_⟩
        · show ¬ w.NoFail
          rw [← noFail_congr hfail]; exact hx.2
        · rcases b5 with rfl | ⟨b5, b6⟩
          · exact Or.inl rfl
          · exact Or.inr ⟨b6, b5⟩
      · obtain ⟨g1, g2, g3, g4, g5⟩ := hg
        dsimp only
        rw [wpM_bind]
        refine wpM_freePtr (ex.own + ({i} + w.live)) (by rw [g2, b3]; abel) fun w5 m1 m2 m3 => ?_
        refine (exclusionMain_spec (w := w) updating cap h a1 g4 g3 (by rw [m1, g1, hfail]) (by rw [m2]; abel) ?_).mono ?_
        · rw [m3]
          rcases g5 with g5 | g5
          · left; rw [g5, b4, l4, k4]
          · exact Or.inr g5
        · intro r w6 hp
          exact hp.weaken Or.inr (fun _ h => h)

theorem shrinkSeeds_spec {cfg : Cfg} {rows : Nat → List Nat} {order : List Nat} {w0 w : World} {L : Multiset Nat} {sr : SeedResult}
    (h : SeedInv cfg w0 L rows order sr w) : WpM (shrinkSeeds sr) w (SeedInv cfg w0 L rows order) := by
  obtain ⟨b, hb, hlen, hget⟩ := h.holds.block
  unfold shrinkSeeds
  split
  · rename_i hc
    rw [wpM_bind, hb]
    unfold reallocHead
    dsimp only
    refine wpM_realloc L (by rw [h.live, hb]; rfl) hc.2 (fun w1 hn k1 k2 k3 => ?_) (fun i w1 k1 k2 k3 => ?_)
    · dsimp only
      rw [wpM_pure]
      exact ⟨by rw [k1, h.fails], by rw [k2, h.live], by rw [k3]; exact h.err, h.holds, h.cap⟩
    · dsimp only
      rw [wpM_pure]
      refine ⟨by rw [k1, h.fails], by rw [k2]; rfl, by rw [k3]; exact h.err, ⟨h.holds.count, le_of_eq h.holds.count.symm, _, rfl, rfl, fun j a hj => ?_⟩, h.cap⟩
      rw [Buf.get_resize, if_pos, hget j a hj]
      show j < sr.count
      rw [h.holds.count]
      by_contra hx
      rw [List.getElem?_eq_none (by omega)] at hj; cases hj
  · rw [wpM_pure]; exact h

theorem inwards_buildOrder {cfg : Cfg} {rows : Nat → List Nat} {n : Nat} {o : List Nat} (h : InwardsOrder cfg.stableSeeds true rows n o) : BuildOrder cfg .inwardsUpdating rows n o := by
  simp only [InwardsOrder, if_true] at h
  exact ⟨fun pre v post hs hv hr x hx hf hrx => (h pre v post hs hv hr x hx hf hrx).le,
    fun hst pre v post hs hv hr x hx hf hrx => ComesFirst.strict (hst ▸ h pre v post hs hv hr x hx hf hrx)⟩

theorem exclusion_buildOrder {cfg : Cfg} {rows : Nat → List Nat} {n : Nat} {o : List Nat} (h : ExclusionOrder cfg.stableSeeds true rows n o) : BuildOrder cfg .exclusionUpdating rows n o := by
  simp only [ExclusionOrder, if_true] at h
  exact ⟨fun pre v post hs hv x hx hf => (h pre v post hs hv x hx hf).le,
    fun hst pre v post hs hv x hx hf => ComesFirst.strict (hst ▸ h pre v post hs hv x hx hf)⟩

theorem findSeedsBy_spec {cfg : Cfg} {nng : Digraph} {rows : Nat → List Nat} {w : World} (m : SeedMethod) (cap : Nat)
    (h : nng.Repr cfg rows) (hnd : m = .inwardsUpdating → ∀ v, v < nng.n → (rows v).Nodup) (hl : ∀ i ∈ nng.ids, i ∈ w.live)
    (hw : m.IsExclusion → w.UncheckedOk) :
    WpM (findSeedsBy cfg nng m cap) w
      (SeedsPostL cfg rows nng.n (m.IsExclusion ∧ ExclBig cfg rows nng.n ∨ cfg.clabelMax < nng.n) (m.IsExclusion ∧ ∃ v, v < nng.n ∧ rows v = []) w (BuildOrder cfg m rows nng.n)) := by
  cases m with
  | lexical => exact (findSeedsLexical_spec cap h hl).mono fun r w' hp => hp.weaken Or.inr (fun _ h => ⟨h, fun _ => h⟩)
  | inwardsOrder => exact (findSeedsInwards_spec false cap h (by simp) hl).mono fun r w' hp => hp.weaken Or.inr (fun _ h => ⟨h, fun _ => h⟩)
  | inwardsUpdating => exact (findSeedsInwards_spec true cap h (fun _ => hnd rfl) hl).mono fun r w' hp => hp.weaken Or.inr (fun _ h => inwards_buildOrder h)
  | exclusionOrder =>
    have : (SeedMethod.exclusionOrder).IsExclusion ↔ True := by simp [SeedMethod.IsExclusion]
    simp only [this, true_and]
    exact (findSeedsExclusion_spec false cap h hl (hw (Or.inl rfl))).mono fun r w' hp => hp.order (fun _ h => ⟨h, fun _ => h⟩)
  | exclusionUpdating =>
    have : (SeedMethod.exclusionUpdating).IsExclusion ↔ True := by simp [SeedMethod.IsExclusion]
    simp only [this, true_and]
    exact (findSeedsExclusion_spec true cap h hl (hw (Or.inr rfl))).mono fun r w' hp => hp.order (fun _ h => exclusion_buildOrder h)

theorem findSeeds_order_spec {cfg : Cfg} {nng : Digraph} {rows : Nat → List Nat} {w : World} (m : SeedMethod) (cap : Nat)
    (h : nng.Repr cfg rows) (hnd : m = .inwardsUpdating → ∀ v, v < nng.n → (rows v).Nodup) (hl : ∀ i ∈ nng.ids, i ∈ w.live)
    (hw : m.IsExclusion → w.UncheckedOk) :
    WpM (findSeeds cfg nng m cap) w
      (SeedsPostL cfg rows nng.n (m.IsExclusion ∧ ExclBig cfg rows nng.n ∨ cfg.clabelMax < nng.n) (m.IsExclusion ∧ ∃ v, v < nng.n ∧ rows v = []) w (BuildOrder cfg m rows nng.n)) := by
  have key := findSeedsBy_spec m cap h hnd hl hw
  unfold findSeeds
  rw [wpM_bind]
  refine key.mono ?_
  rintro (e | sr) w1 h1
  · dsimp only
    rw [wpM_pure]; exact h1
  · obtain ⟨o, h2, h3, h4⟩ := h1
    dsimp only
    rw [wpM_bind]
    refine (shrinkSeeds_spec h4).mono fun sr' w2 h5 => ?_
    rw [wpM_pure]
    exact ⟨o, h2, h3, h5⟩

theorem findSeeds_spec {cfg : Cfg} {nng : Digraph} {rows : Nat → List Nat} {w : World} (m : SeedMethod) (cap : Nat)
    (h : nng.Repr cfg rows) (hnd : m = .inwardsUpdating → ∀ v, v < nng.n → (rows v).Nodup) (hl : ∀ i ∈ nng.ids, i ∈ w.live)
    (hw : m.IsExclusion → w.UncheckedOk) :
    WpM (findSeeds cfg nng m cap) w
      (SeedsPostL cfg rows nng.n (m.IsExclusion ∧ ExclBig cfg rows nng.n ∨ cfg.clabelMax < nng.n) (m.IsExclusion ∧ ∃ v, v < nng.n ∧ rows v = []) w (MethodOrder m rows nng.n)) :=
  (findSeeds_order_spec m cap h hnd hl hw).mono fun r w' hp => hp.order (fun _ h => h.1)

end Scc
