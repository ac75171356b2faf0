/-
The functions that find seeds, with assertions: the same as without.
-/
import Verif.Proofs.AssertSort
import Verif.Proofs.Run

set_option linter.unusedSimpArgs false
set_option linter.unusedVariables false

namespace Scc

theorem addSeedDbg_eq {cfg : Cfg} {v : Nat} {sr : SeedResult} {S : List Nat} (h : sr.Holds S) (hc : 0 < sr.capacity) : addSeedDbg cfg v sr = addSeed cfg v sr := by
  unfold addSeedDbg
  rw [asrtM_bind hc, asrtM_bind (by rw [h.count]; exact h.cap), asrtM_bind (p := sr.seeds ≠ none)]
  obtain ⟨b, hb, -⟩ := h.block
  rw [hb]; simp

theorem asrtArcs_bind {cfg : Cfg} {nng : Digraph} {rows : Nat → List Nat} {v : Nat} {w : World} {β : Type} {f : Unit → M β} (h : nng.Repr cfg rows) (hl : ∀ i ∈ nng.ids, i ∈ w.live)
    (hv : v < nng.n) (hr : rows v ≠ []) : (asrtArcs nng v >>= f) w = f () w := by
  refine asrtK_bind hl ?_
  rw [get_bind (h.csr.tail_get v (by omega)), get_bind (h.csr.tail_get (v + 1) (by omega))]
  have hpos : 0 < (rows v).length := List.length_pos_iff.2 hr
  have : off rows v ≠ off rows (v + 1) := by
    rw [show off rows (v + 1) = off rows v + (rows v).length from rfl]; omega
  simp [this]

theorem SeedInv.room {cfg : Cfg} {w0 w : World} {L : Multiset Nat} {rows : Nat → List Nat} {pre : List Nat} {sr : SeedResult} {v : Nat}
    (h : SeedInv cfg w0 L rows (pre ++ [v]) sr w) (hadd : CanAdd rows (greedySeeds rows pre) v) : 0 < sr.capacity := by
  have := h.holds.cap
  rw [greedySeeds_snoc, if_pos hadd] at this
  simp at this; omega

/-! ### Lexical -/

section
variable {cfg : Cfg} {nng : Digraph} {rows : Nat → List Nat}

theorem lexicalStepDbg_eq {w w3 : World} {L : Multiset Nat} {i v : Nat} {pre : List Nat} {marks : Buf Bool} {sr : SeedResult}
    (h : nng.Repr cfg rows) (hlive : ∀ x ∈ i :: nng.ids, x ∈ L) (hv : v < nng.n) (hnd : (rows v).Nodup) (hpre : pre.length < nng.n)
    (a1 : SeedInv cfg w L rows pre sr w3) (a2 : MarksOK nng.n rows (greedySeeds rows pre) marks) (hc : 0 < sr.capacity) :
    lexicalStepDbg cfg nng i (marks, sr) v w3 = lexicalStep cfg nng i (marks, sr) v w3 := by
  unfold lexicalStepDbg lexicalStep
  rw [useK_bind (a1.mem_live hlive) (checkMarks_spec h.csr a2 hv), useK_bind (a1.mem_live hlive) (checkMarks_spec h.csr a2 hv)]
  by_cases hadd : CanAdd rows (greedySeeds rows pre) v
  · rw [if_pos (by simpa using hadd), if_pos (by simpa using hadd), asrtArcs_bind h (a1.mem_live fun x hx => hlive x (by simp [hx])) hv hadd.1]
    refine mbind_eq (by rw [addSeedDbg_eq a1.holds hc]) (a1.add hadd hpre) ?_
    rintro ⟨ec, sr'⟩ w4 -
    dsimp only
    refine congrFun (ite_both (fun _ => rfl) fun _ => ?_) w4
    rw [markNeighborsDbg_eq h.csr a2 hv hnd hadd]
  · rw [if_neg (by simpa using hadd), if_neg (by simpa using hadd)]

theorem lexicalStep_room {w w3 : World} {L : Multiset Nat} {i v : Nat} {pre : List Nat} {marks : Buf Bool} {sr : SeedResult}
    (h : nng.Repr cfg rows) (hlive : ∀ x ∈ i :: nng.ids, x ∈ L) (hv : v < nng.n) (hpre : pre.length < nng.n)
    (a1 : SeedInv cfg w L rows pre sr w3) (a2 : MarksOK nng.n rows (greedySeeds rows pre) marks) (hc : 0 < sr.capacity) :
    WpM (lexicalStep cfg nng i (marks, sr) v) w3 (fun c w' => match c with
      | .next st' => (SeedInv cfg w L rows (pre ++ [v]) st'.2 w' ∧ MarksOK nng.n rows (greedySeeds rows (pre ++ [v])) st'.1) ∧ 0 < st'.2.capacity
      | .stop r => True) := by
  have hs := lexicalStep_spec h hlive hv hpre a1 a2
  by_cases hadd : CanAdd rows (greedySeeds rows pre) v
  · refine hs.mono ?_
    rintro (st | r) w' hh
    · exact ⟨hh, hh.1.room hadd⟩
    · trivial
  · have : WpM (lexicalStep cfg nng i (marks, sr) v) w3 (fun c w' => c = .next (marks, sr)) := by
      unfold lexicalStep
      rw [wpM_bind, wpM_useK]
      refine ⟨a1.mem_live hlive, ?_⟩
      rw [wp_eq (checkMarks_spec h.csr a2 hv), if_neg (by simpa using hadd), wpM_pure]
    refine (hs.and this).mono ?_
    rintro (st | r) w' ⟨hh, he⟩
    · cases he; exact ⟨hh, hc⟩
    · cases he

theorem asrtFind_bind {cap : Nat} {w : World} {β : Type} {f : Unit → M β} (h : nng.Repr cfg rows) (he : off rows nng.n ≠ 0) (hl : ∀ i ∈ nng.ids, i ∈ w.live) (h1 : 1 < nng.n) (hc : 0 < cap) :
    (asrtFind cfg nng cap >>= f) w = f () w := by
  unfold asrtFind
  simp only [bind_assoc]
  rw [asrtValid_bind h hl, asrtNonempty_bind h he hl, asrtM_bind h1, asrtM_bind hc]

theorem range_at {n v : Nat} {pre post : List Nat} (hsplit : List.range n = pre ++ v :: post) : v = pre.length ∧ pre.length < n := by
  have hlen : n = pre.length + (post.length + 1) := by
    have := congrArg List.length hsplit; simpa using this
  have := congrArg (fun l => l[pre.length]?) hsplit
  simp only [List.getElem?_append_right (le_refl _), Nat.sub_self, List.getElem?_cons_zero] at this
  rw [List.getElem?_range (by omega)] at this
  simp at this; omega

theorem findSeedsLexicalDbg_eq {cap : Nat} {w : World} (h : nng.Repr cfg rows) (hnd : ∀ v, v < nng.n → (rows v).Nodup) (he : off rows nng.n ≠ 0) (hl : ∀ i ∈ nng.ids, i ∈ w.live)
    (h1 : 1 < nng.n) (hc : 0 < cap) : findSeedsLexicalDbg cfg nng cap w = findSeedsLexical cfg nng cap w := by
  unfold findSeedsLexicalDbg findSeedsLexical
  rw [asrtFind_bind h he hl h1 hc]
  refine mbind_eq rfl wpM_allocE fun marks w1 ⟨k1, k2, k3⟩ => ?_
  refine mbind_eq rfl wpM_allocE fun seeds w2 ⟨l1, l2, l3⟩ => ?_
  cases marks with
  | none => cases seeds <;> rfl
  | some marks =>
    cases seeds with
    | none => rfl
    | some seeds =>
      dsimp only
      rw [asrtM_bind h.vertices]
      refine mbind_same ?_
      have hlive : ∀ x ∈ marks.id :: nng.ids, x ∈ w1.live := by
        intro x hx
        rw [k2]
        rcases List.mem_cons.1 hx with rfl | hx
        · exact Multiset.mem_add.2 (Or.inl (by simp [ptrOwn]))
        · exact Multiset.mem_add.2 (Or.inr (hl x hx))
      refine foldBM_eq (fun pre st w' => (SeedInv cfg w2 w1.live rows pre st.2 w' ∧ MarksOK nng.n rows (greedySeeds rows pre) st.1) ∧ 0 < st.2.capacity) _ ?_ ?_
      · refine ⟨⟨⟨rfl, l2, Or.inl rfl, ⟨rfl, by simp [greedySeeds], _, rfl, ?_, by simp [greedySeeds]⟩, by simp [greedySeeds]⟩, ?_⟩, hc⟩
        · rw [l3 _ rfl]; rfl
        · rw [k3 _ rfl]; exact marksOK_init
      · rintro pre v post ⟨mb, sr⟩ w3 hsplit ⟨⟨a1, a2⟩, a3⟩
        obtain ⟨rfl, hlt⟩ := range_at hsplit
        refine ⟨lexicalStepDbg_eq h hlive hlt (hnd _ hlt) hlt a1 a2 a3, (lexicalStep_room h hlive hlt hlt a1 a2 a3).mono ?_⟩
        rintro (st | r) w' hh
        · exact hh
        · trivial

/-! ### Inwards -/

theorem sortByInwardsDbg_eq {g : Digraph} {w : World} (indices : Bool) (h : g.Repr cfg rows) (he : off rows g.n ≠ 0) (hl : ∀ i ∈ g.ids, i ∈ w.live) (h1 : 1 < g.n) :
    sortByInwardsDbg cfg g indices w = sortByInwards g indices w := by
  unfold sortByInwardsDbg sortByInwards
  rw [asrtValid_bind h hl, asrtNonempty_bind h he hl, asrtM_bind h1]
  simp only [asrtM_bind h.vertices]
  rfl

theorem checkSortCall_bind {updating : Bool} {n mx p : Nat} {ids : List Nat} {q : Queue} {ord pos f : Nat → Nat} {w : World} {β : Type} {k : Unit → M β}
    (h : updating = true → QOK cfg.stableSeeds n mx p q ord pos f) (hp : p < n) (hl : ∀ i ∈ ids, i ∈ w.live) : (checkSortCall cfg updating n p ids q >>= k) w = k () w := by
  unfold checkSortCall
  cases hs : cfg.stableSeeds with
  | false => simp
  | true =>
    cases updating with
    | false => simp
    | true =>
      simp only [Bool.and_self, if_true]
      rw [useK_bind hl (checkSortDbg_ok (hs ▸ h rfl) hp)]

theorem inwardsStepDbg_eq {w w1 : World} {L : Multiset Nat} {ids : List Nat} {updating : Bool} {ord0 : Nat → Nat} {p : Nat} {st : Buf Bool × SeedResult × Queue}
    (h : nng.Repr cfg rows) (hnd : ∀ v, v < nng.n → (rows v).Nodup) (hids : ∀ i ∈ ids ++ nng.ids, i ∈ L) (hp : p < nng.n)
    (hi : InwardsInv cfg w L nng.n rows updating ord0 p st w1) (hc : 0 < st.2.1.capacity) :
    inwardsStepDbg cfg nng ids updating st p w1 = inwardsStep cfg nng ids updating st p w1 := by
  obtain ⟨marks, sr, q⟩ := st
  obtain ⟨ord, pos, hok, hsv, hseed, hmarks, hupd, hnon⟩ := hi
  dsimp only at hsv hseed hmarks hupd hc
  have hv := hok.ord_lt p hp
  have hl1 := hseed.mem_live fun i hi => hids i (List.mem_append_left _ hi)
  have hl2 := hseed.mem_live hids
  have hl3 := hseed.mem_live fun i hi => hids i (List.mem_append_right _ hi)
  have hq : ∃ mx f, updating = true → QOK cfg.stableSeeds nng.n mx p q ord pos f := by
    by_cases hu : updating = true
    · obtain ⟨mx, f, h1, -⟩ := hupd hu
      exact ⟨mx, f, fun _ => h1⟩
    · exact ⟨0, id, fun hx => absurd hx hu⟩
  obtain ⟨mx, f, hq⟩ := hq
  unfold inwardsStepDbg inwardsStep
  dsimp only
  rw [checkSortCall_bind hq hp hl1, useK_bind hl1 (hsv p hp), useK_bind hl1 (hsv p hp), useK_bind hl2 (checkMarks_spec h.csr hmarks hv), useK_bind hl2 (checkMarks_spec h.csr hmarks hv)]
  by_cases hadd : CanAdd rows (greedySeeds rows ((List.range p).map ord)) (ord p)
  · rw [if_pos (by simpa using hadd), if_pos (by simpa using hadd), asrtArcs_bind h hl3 hv hadd.1]
    refine mbind_eq (by rw [addSeedDbg_eq hseed.holds hc]) (hseed.add hadd (n := nng.n) (by simpa using hp)) ?_
    rintro ⟨ec, sr'⟩ w4 -
    dsimp only
    refine congrFun (ite_both (fun _ => rfl) fun _ => ?_) w4
    rw [markNeighborsDbg_eq h.csr hmarks hv (hnd _ hv) hadd]
    cases updating with
    | false => simp only [Bool.false_eq_true, if_false]
    | true =>
      simp only [if_true]
      simp only [updateAfterSeedDbg_eq h.csr ((hq rfl).mono (Nat.le_succ p)) hv]
  · have hd : ¬ decide (CanAdd rows (greedySeeds rows ((List.range p).map ord)) (ord p)) = true := by simpa using hadd
    rw [if_neg hd, if_neg hd]
    cases updating with
    | false => simp only [Bool.false_eq_true, if_false]
    | true =>
      simp only [if_true]
      rw [updateAfterSkipDbg_eq h.csr ((hq rfl).mono (Nat.le_succ p)) hv]

theorem wpM_bind_pure_post {α β : Type} {x : M α} {f : α → β} {w : World} {Q : β → World → Prop} (h : WpM (x >>= fun a => pure (f a)) w Q) :
    WpM (x >>= fun a => pure (f a)) w fun c _ => ∃ a, c = f a := by
  rw [wpM_bind] at h ⊢
  refine h.mono fun a w' _ => ?_
  rw [wpM_pure]
  exact ⟨a, rfl⟩

theorem inwardsStep_room {w w1 : World} {L : Multiset Nat} {ids : List Nat} {updating : Bool} {ord0 : Nat → Nat} {p : Nat} {st : Buf Bool × SeedResult × Queue}
    (h : nng.Repr cfg rows) (hnd : ∀ v, v < nng.n → (rows v).Nodup) (hids : ∀ i ∈ ids ++ nng.ids, i ∈ L) (hp : p < nng.n)
    (hi : InwardsInv cfg w L nng.n rows updating ord0 p st w1) (hc : 0 < st.2.1.capacity) :
    WpM (inwardsStep cfg nng ids updating st p) w1 (fun c w' => match c with
      | .next st' => InwardsInv cfg w L nng.n rows updating ord0 (p + 1) st' w' ∧ 0 < st'.2.1.capacity
      | .stop r => True) := by
  have hs := inwardsStep_spec h (fun _ => hnd) hids hp hi
  obtain ⟨marks, sr, q⟩ := st
  obtain ⟨ord, pos, hok, hsv, hseed, hmarks, hupd, hnon⟩ := hi
  dsimp only at hsv hseed hmarks hupd hc
  have hv := hok.ord_lt p hp
  have hl1 := hseed.mem_live fun i hi => hids i (List.mem_append_left _ hi)
  have hl2 := hseed.mem_live hids
  have key : WpM (inwardsStep cfg nng ids updating (marks, sr, q) p) w1 (fun c w' => match c with | .next st' => 0 < st'.2.1.capacity | .stop r => True) := by
    obtain ⟨c, w2, hrun, -⟩ := hs
    have hs' : WpM (inwardsStep cfg nng ids updating (marks, sr, q) p) w1 (fun _ _ => True) := ⟨c, w2, hrun, trivial⟩
    clear hrun
    unfold inwardsStep at hs' ⊢
    dsimp only at hs' ⊢
    rw [wpM_bind, wpM_useK] at hs' ⊢
    refine ⟨hl1, ?_⟩
    have hs' := hs'.2
    rw [wp_eq (hsv p hp), wpM_bind, wpM_useK] at hs' ⊢
    refine ⟨hl2, ?_⟩
    have hs' := hs'.2
    rw [wp_eq (checkMarks_spec h.csr hmarks hv)] at hs' ⊢
    by_cases hadd : CanAdd rows (greedySeeds rows ((List.range p).map ord)) (ord p)
    · rw [if_pos (by simpa using hadd)] at hs' ⊢
      rw [wpM_bind] at hs' ⊢
      refine ((hseed.add hadd (n := nng.n) (by simpa using hp)).and hs').mono ?_
      rintro ⟨ec, sr'⟩ w4 ⟨hh | ⟨hne, -⟩, hr⟩
      · obtain ⟨rfl, b2⟩ := hh
        have hroom := b2.room hadd
        simp only [ne_eq, not_true, if_false] at hr ⊢
        rw [wpM_bind] at hr ⊢
        refine hr.mono fun m w5 hr => ?_
        cases updating with
        | false =>
          simp only [Bool.false_eq_true, if_false]
          rw [wpM_bind, wpM_pure, wpM_pure]; exact hroom
        | true =>
          simp only [if_true] at hr ⊢
          rw [wpM_bind] at hr ⊢
          refine hr.mono fun q' w6 _ => ?_
          rw [wpM_pure]; exact hroom
      · dsimp only at hne ⊢
        rw [if_pos hne, wpM_pure]; trivial
    · rw [if_neg (by simpa using hadd)] at hs' ⊢
      cases updating with
      | false =>
        simp only [Bool.false_eq_true, if_false]
        rw [wpM_pure]; exact hc
      | true =>
        simp only [if_true] at hs' ⊢
        rw [wpM_bind] at hs' ⊢
        refine hs'.mono fun q' w6 _ => ?_
        rw [wpM_pure]; exact hc
  refine (hs.and key).mono ?_
  rintro (st | r) w' hh
  · exact hh
  · trivial

theorem sort_ids {sort : SortResult} {x : Nat} (hx : x ∈ ptrIds sort.cnt ++ ptrIds sort.sv ++ ptrIds sort.vidx ++ ptrIds sort.bidx) : x ∈ sort.own := by
  have hpo : ∀ p : Option (Blk Nat), x ∈ ptrIds p → x ∈ ptrOwn p := by
    intro p hp; cases p <;> simpa [ptrIds, ptrOwn] using hp
  simp only [List.mem_append] at hx
  simp only [SortResult.own, Multiset.mem_add]
  rcases hx with ((hx | hx) | hx) | hx
  · exact Or.inl (hpo _ hx)
  · exact Or.inr (Or.inl (hpo _ hx))
  · exact Or.inr (Or.inr (Or.inl (hpo _ hx)))
  · exact Or.inr (Or.inr (Or.inr (hpo _ hx)))

theorem findSeedsInwardsDbg_eq {cap : Nat} {w : World} (updating : Bool) (h : nng.Repr cfg rows) (hnd : ∀ v, v < nng.n → (rows v).Nodup) (he : off rows nng.n ≠ 0)
    (hl : ∀ i ∈ nng.ids, i ∈ w.live) (h1 : 1 < nng.n) (hc : 0 < cap) : findSeedsInwardsDbg cfg nng updating cap w = findSeedsInwards cfg nng updating cap w := by
  unfold findSeedsInwardsDbg findSeedsInwards
  rw [asrtFind_bind h he hl h1 hc]
  refine mbind_eq (sortByInwardsDbg_eq updating h he hl h1) (sortByInwards_spec updating h hl) ?_
  rintro (e | sort) w0 hs
  · rfl
  · obtain ⟨s1, s2, s3, ord0, hord0, hsv0, hq0⟩ := hs
    dsimp only
    refine mbind_eq rfl wpM_allocE fun marks w1 ⟨k1, k2, k3⟩ => ?_
    refine mbind_eq rfl wpM_allocE fun seeds w2 ⟨l1, l2, l3⟩ => ?_
    cases marks with
    | none => cases seeds <;> rfl
    | some marks =>
      cases seeds with
      | none => rfl
      | some seeds =>
        dsimp only
        refine mbind_same ?_
        have hids : ∀ x ∈ (marks.id :: (ptrIds sort.cnt ++ ptrIds sort.sv ++ ptrIds sort.vidx ++ ptrIds sort.bidx)) ++ nng.ids, x ∈ w1.live := by
          intro x hx
          rw [k2, s2]
          rw [List.cons_append, List.mem_cons, List.mem_append] at hx
          rcases hx with rfl | hx | hx
          · exact Multiset.mem_add.2 (Or.inl (by simp [ptrOwn]))
          · exact Multiset.mem_add.2 (Or.inr (Multiset.mem_add.2 (Or.inl (sort_ids hx))))
          · exact Multiset.mem_add.2 (Or.inr (Multiset.mem_add.2 (Or.inr (hl x hx))))
        refine foldBM_eq (fun pre st w' => InwardsInv cfg w2 w1.live nng.n rows updating ord0 pre.length st w' ∧ 0 < st.2.1.capacity) _ ?_ ?_
        · refine ⟨⟨ord0, _, hord0, hsv0, ⟨rfl, l2, Or.inl rfl, ⟨rfl, by simp [greedySeeds], _, rfl, by rw [l3 _ rfl]; rfl, by simp [greedySeeds]⟩, by simp [greedySeeds]⟩,
            by rw [k3 _ rfl]; exact marksOK_init, fun hu => ?_, fun _ => rfl⟩, hc⟩
          obtain ⟨mx, hq⟩ := hq0 hu
          refine ⟨mx, _, hq _, fun x hx _ _ _ => ?_, fun i hi => absurd hi (by simp)⟩
          rw [indeg_eq_sumIf]
          exact sumIf_congr fun u _ _ => by simp [Captured, greedySeeds]
        · rintro pre v post st w3 hsplit ⟨hi, hcap⟩
          obtain ⟨rfl, hlt⟩ := range_at hsplit
          refine ⟨inwardsStepDbg_eq h hnd hids hlt hi hcap, (inwardsStep_room h hnd hids hlt hi hcap).mono ?_⟩
          rintro (st | r) w' hh
          · simpa using hh
          · trivial

/-! ### Exclusion -/

theorem off_ne_zero {r : Nat → List Nat} {n u x : Nat} (hu : u < n) (hx : x ∈ r u) : off r n ≠ 0 := by
  have h1 : off r (u + 1) ≤ off r n := off_mono (by omega)
  have h2 : 0 < (r u).length := List.length_pos_of_mem hx
  have h3 : off r (u + 1) = off r u + (r u).length := rfl
  omega

theorem exclusionGraphDbg_eq {w : World} {keep : Option (List Nat)} (h : nng.Repr cfg rows) (hl : ∀ i ∈ nng.ids, i ∈ w.live) (hk : KeepArcs rows nng.n keep)
    (h0 : 0 < nng.n) (hz : nng.n < cfg.sizeMax) (ha : ∃ u x, u < nng.n ∧ x ∈ rows u ∧ x ≠ u) : exclusionGraphDbg cfg nng keep w = exclusionGraph cfg nng keep w := by
  obtain ⟨u, x, hu, hx, hxu⟩ := ha
  have hxn := h.csr.range u hu x hx
  have he := off_ne_zero hu hx
  have hte : off (transposeRows rows nng.n) nng.n ≠ 0 := off_ne_zero hxn (mem_transposeRows.2 ⟨hu, hx⟩)
  have hpe : off (productRows true rows (transposeRows rows nng.n)) nng.n ≠ 0 := by
    refine off_ne_zero hxn (x := u) ?_
    simp only [productRows, mem_firstOcc, if_true, List.mem_append, mem_transposeRows, List.mem_singleton]
    exact ⟨Or.inl ⟨hu, hx⟩, Ne.symm hxu⟩
  unfold exclusionGraphDbg exclusionGraph
  rw [asrtValid_bind h hl, asrtNonempty_bind h he hl]
  refine mbind_eq (digraphTransposeDbg_eq h h0 hz hl) (digraphTranspose_spec h hl) ?_
  rintro (e | tr) w1 h1
  · rfl
  · obtain ⟨a1, a2, a3, a4, a5, a6⟩ := h1
    dsimp only
    have hl1 : ∀ i ∈ nng.ids, i ∈ w1.live := fun i hi => by rw [a2]; exact Multiset.mem_add.2 (Or.inr (hl i hi))
    have ht1 : ∀ i ∈ tr.ids, i ∈ w1.live := fun i hi => by rw [a2]; exact Multiset.mem_add.2 (Or.inl (mem_ids_iff_own.1 hi))
    rw [asrtNonempty_bind a4 (by rw [a3]; exact hte) ht1]
    refine mbind_eq (adjacencyProductDbg_eq true h a4 a3 h0 hz he (by rw [a3]; exact hte) hpe hl1 ht1) (adjacencyProduct_spec true h a4 a3 hl1 ht1) ?_
    rintro (e | prod) w2 h2
    · rfl
    · obtain ⟨b1, b2, b3, b4, b5, b6⟩ := h2
      refine mbind_eq rfl (freeDigraph_spec (Q := fun _ w3 => w3.live = prod.own + w.live) (prod.own + w.live) (by rw [b2, a2]; abel) fun w3 m1 m2 m3 => m2) ?_
      intro _ w3 m2
      dsimp only
      refine mbind_same ?_
      refine unionAndDeleteDbg_eq (n := nng.n) (rowss := [rows, productRows true rows (transposeRows rows nng.n)]) false (by simp) h0 hz
        (List.Forall₂.cons ⟨h, rfl⟩ (List.Forall₂.cons ⟨b4, b3⟩ List.Forall₂.nil)) ?_ ?_
      · intro ts hts
        subst hts
        unfold KeepArcs at hk
        dsimp only at hk
        subst hk
        exact ⟨List.pairwise_lt_range.filter _, fun t ht => by simpa using (List.mem_filter.1 ht).1⟩
      · intro d hd i hi
        rw [m2]
        rcases List.mem_cons.1 hd with rfl | hd
        · exact Multiset.mem_add.2 (Or.inr (hl i hi))
        · simp only [List.mem_singleton] at hd; subst hd
          exact Multiset.mem_add.2 (Or.inl (mem_ids_iff_own.1 hi))

theorem exclusionStepDbg_eq {tail : Buf Nat} {w w1 : World} {L : Multiset Nat} {ids : List Nat} {updating : Bool} {ord0 : Nat → Nat} {p : Nat}
    {st : Buf Bool × Buf Nat × SeedResult × Queue} (h : nng.Repr cfg rows) (hids : ∀ i ∈ ids, i ∈ L) (hnl : ∀ i ∈ nng.ids, i ∈ L) (hp : p < nng.n)
    (hi : ExclInv cfg w L nng.n tail rows updating ord0 p st w1) (hcap : 0 < st.2.2.1.capacity) :
    exclusionStepDbg cfg nng ids tail updating st p w1 = exclusionStep cfg ids tail updating st p w1 := by
  obtain ⟨ne, head, sr, q⟩ := st
  obtain ⟨ord, pos, hok, hsv, hseed, hne, ⟨G, hc, hG⟩, hupd, hnon⟩ := hi
  dsimp only at hsv hseed hne hupd hc hcap
  have hv := hok.ord_lt p hp
  have hl1 := hseed.mem_live hids
  have hq : ∃ mx f, updating = true → QOK cfg.stableSeeds nng.n mx p q ord pos f := by
    by_cases hu : updating = true
    · obtain ⟨mx, f, h1, -⟩ := hupd hu
      exact ⟨mx, f, fun _ => h1⟩
    · exact ⟨0, id, fun hx => absurd hx hu⟩
  obtain ⟨mx, f, hq⟩ := hq
  unfold exclusionStepDbg exclusionStep
  dsimp only
  rw [checkSortCall_bind hq hp hl1, useK_bind hl1 (hsv p hp), useK_bind hl1 (hsv p hp), useK_bind hl1 (hne.get _ hv), useK_bind hl1 (hne.get _ hv)]
  by_cases hadd : CanAdd rows (greedySeeds rows ((List.range p).map ord)) (ord p)
  · have hd : decide (CanAdd rows (greedySeeds rows ((List.range p).map ord)) (ord p)) = true := by simpa using hadd
    have hg : greedySeeds rows ((List.range (p + 1)).map ord) = greedySeeds rows ((List.range p).map ord) ++ [ord p] := by
      rw [range_snoc_map, greedySeeds_snoc, if_pos hadd]
    rw [if_pos hd, if_pos hd, asrtArcs_bind h (hseed.mem_live hnl) hv hadd.1]
    refine mbind_eq (by rw [addSeedDbg_eq hseed.holds hcap]) (hseed.add hadd (n := nng.n) (by simpa using hp)) ?_
    rintro ⟨ec, sr'⟩ w4 -
    dsimp only
    refine congrFun (ite_both (fun _ => rfl) fun _ => ?_) w4
    rw [Buf.set_eq ne false (by rw [hne.len]; exact hv)]
    cases updating with
    | false => simp only [Bool.false_eq_true, if_false]
    | true =>
      simp only [if_true]
      funext w5
      by_cases hl5 : ∀ i ∈ ids, i ∈ w5.live
      · rw [useK_bind hl5 rfl, useK_bind hl5 rfl]
        refine mbind_same ?_
        rw [excludeUpdatingDbg_eq (ne := ne.upd (ord p) false) h.csr.range hc hv hadd hG hne.len ?_ ((hq rfl).mono (Nat.le_succ p)) ?_]
        · intro x hx
          by_cases hxv : x = ord p
          · rw [hxv, Buf.get_upd_self _ _ (by rw [hne.len]; exact hv)]; simp
          · rw [Buf.get_upd_ne _ _ hxv, hne.get x hx]; simp [hxv]
        · intro x hx
          rw [← hg] at hx
          exact pos_of_canAdd hok hx
      · have : ∀ (k : Buf Bool → M (Ctl (Buf Bool × Buf Nat × SeedResult × Queue) (ErrorCode × SeedResult))), (useK ids (some (ne.upd (ord p) false)) >>= k) w5 = none := by
          intro k
          show (useK ids _ w5).bind _ = _
          unfold useK
          rw [if_neg hl5]; rfl
        rw [this, this]
  · have hd : ¬ decide (CanAdd rows (greedySeeds rows ((List.range p).map ord)) (ord p)) = true := by simpa using hadd
    rw [if_neg hd, if_neg hd]

theorem exclusionStep_room {tail : Buf Nat} {n : Nat} {w w1 : World} {L : Multiset Nat} {ids : List Nat} {updating : Bool} {ord0 : Nat → Nat} {p : Nat}
    {st : Buf Bool × Buf Nat × SeedResult × Queue} (hr : ∀ v, v < n → ∀ a ∈ rows v, a < n) (hids : ∀ i ∈ ids, i ∈ L) (hp : p < n)
    (hi : ExclInv cfg w L n tail rows updating ord0 p st w1) (hcap : 0 < st.2.2.1.capacity) :
    WpM (exclusionStep cfg ids tail updating st p) w1 (fun c w' => match c with
      | .next st' => ExclInv cfg w L n tail rows updating ord0 (p + 1) st' w' ∧ 0 < st'.2.2.1.capacity
      | .stop r => True) := by
  have hs := exclusionStep_spec hr hids hp hi
  obtain ⟨ne, head, sr, q⟩ := st
  obtain ⟨ord, pos, hok, hsv, hseed, hne, -, hupd, hnon⟩ := hi
  dsimp only at hsv hseed hne hupd hcap
  have hv := hok.ord_lt p hp
  have hl1 := hseed.mem_live hids
  have key : WpM (exclusionStep cfg ids tail updating (ne, head, sr, q) p) w1 (fun c w' => match c with | .next st' => 0 < st'.2.2.1.capacity | .stop r => True) := by
    obtain ⟨c, w2, hrun, -⟩ := hs
    have hs' : WpM (exclusionStep cfg ids tail updating (ne, head, sr, q) p) w1 (fun _ _ => True) := ⟨c, w2, hrun, trivial⟩
    clear hrun
    unfold exclusionStep at hs' ⊢
    dsimp only at hs' ⊢
    rw [wpM_bind, wpM_useK] at hs' ⊢
    refine ⟨hl1, ?_⟩
    have hs' := hs'.2
    rw [wp_eq (hsv p hp), wpM_bind, wpM_useK] at hs' ⊢
    refine ⟨hl1, ?_⟩
    have hs' := hs'.2
    rw [wp_eq (hne.get _ hv)] at hs' ⊢
    by_cases hadd : CanAdd rows (greedySeeds rows ((List.range p).map ord)) (ord p)
    · rw [if_pos (by simpa using hadd)] at hs' ⊢
      rw [wpM_bind] at hs' ⊢
      refine ((hseed.add hadd (n := n) (by simpa using hp)).and hs').mono ?_
      rintro ⟨ec, sr'⟩ w4 ⟨hh | ⟨hne, -⟩, hr⟩
      · obtain ⟨rfl, b2⟩ := hh
        have hroom := b2.room hadd
        simp only [ne_eq, not_true, if_false] at hr ⊢
        rw [wpM_bind] at hr ⊢
        refine hr.mono fun m w5 hr => ?_
        cases updating with
        | false =>
          simp only [Bool.false_eq_true, if_false] at hr ⊢
          rw [wpM_bind] at hr ⊢
          refine hr.mono fun q' w6 _ => ?_
          rw [wpM_pure]; exact hroom
        | true =>
          simp only [if_true] at hr ⊢
          rw [wpM_bind] at hr ⊢
          refine hr.mono fun q' w6 _ => ?_
          rw [wpM_pure]; exact hroom
      · dsimp only at hne ⊢
        rw [if_pos hne, wpM_pure]; trivial
    · rw [if_neg (by simpa using hadd), wpM_pure]; exact hcap
  refine (hs.and key).mono ?_
  rintro (st | r) w' hh
  · exact hh
  · trivial

theorem exclusionMainDbg_eq {ex : Digraph} {w0 : World} {M : Multiset Nat} (updating : Bool) {cap : Nat} {ne : Blk Bool}
    (h : nng.Repr cfg rows) (hne : NEOK nng.n rows [] ne.buf) (hex : ex.Repr cfg (conflictRows rows nng.n)) (hexn : ex.n = nng.n) (h1 : 1 < nng.n) (hcap : 0 < cap)
    (ha : ∃ u x, u < nng.n ∧ x ∈ rows u ∧ x ≠ u) (hl : w0.live = {ne.id} + (ex.own + M)) (hnl : ∀ i ∈ nng.ids, i ∈ M) :
    exclusionMainDbg cfg nng updating cap ne ex w0 = exclusionMain cfg nng updating cap ne ex w0 := by
  obtain ⟨u, x, hu, hx, hxu⟩ := ha
  have hxn := h.csr.range u hu x hx
  have he : off (conflictRows rows nng.n) ex.n ≠ 0 := by
    rw [hexn]
    refine off_ne_zero hu ((mem_conflictRows h.csr.range hu).2 ⟨List.ne_nil_of_mem hx, hxn, Ne.symm hxu, x, ?_, ?_⟩)
    · simp [closedNbr, hx]
    · simp [closedNbr]
  have hexl : ∀ i ∈ ex.ids, i ∈ w0.live := fun i hi => by
    rw [hl]; exact Multiset.mem_add.2 (Or.inr (Multiset.mem_add.2 (Or.inl (mem_ids_iff_own.1 hi))))
  unfold exclusionMainDbg exclusionMain
  refine mbind_eq (sortByInwardsDbg_eq updating hex he hexl (by omega)) (sortByInwards_spec updating hex hexl) ?_
  rintro (e | sort) w1 hs
  · rfl
  · obtain ⟨s1, s2, s3, ord0, hord0, hsv0, hq0⟩ := hs
    rw [hexn] at hord0 hsv0 hq0
    dsimp only
    refine mbind_eq rfl wpM_allocE fun seeds w2 ⟨l1, l2, l3⟩ => ?_
    cases seeds with
    | none => rfl
    | some seeds =>
      dsimp only
      refine mbind_same ?_
      have hids : ∀ x ∈ ne.id :: (ex.ids ++ ptrIds sort.cnt ++ ptrIds sort.sv ++ ptrIds sort.vidx ++ ptrIds sort.bidx), x ∈ w1.live := by
        intro x hx
        rw [s2, hl]
        have hx' : x = ne.id ∨ x ∈ ex.ids ∨ x ∈ ptrIds sort.cnt ++ ptrIds sort.sv ++ ptrIds sort.vidx ++ ptrIds sort.bidx := by
          simp only [List.mem_cons, List.mem_append] at hx ⊢; tauto
        simp only [Multiset.mem_add, Multiset.mem_singleton]
        rcases hx' with hx | hx | hx
        · exact Or.inr (Or.inl hx)
        · exact Or.inr (Or.inr (Or.inl (mem_ids_iff_own.1 hx)))
        · exact Or.inl (sort_ids hx)
      have hnl1 : ∀ i ∈ nng.ids, i ∈ w1.live := by
        intro i hi
        rw [s2, hl]
        simp only [Multiset.mem_add]
        exact Or.inr (Or.inr (Or.inr (hnl i hi)))
      have hcsr : Csr nng.n (ptrBuf ex.head) (ptrBuf ex.tail) (conflictRows rows nng.n) := hexn ▸ hex.csr
      refine foldBM_eq (fun pre st w' => ExclInv cfg w2 w1.live nng.n (ptrBuf ex.tail) rows updating ord0 pre.length st w' ∧ 0 < st.2.2.1.capacity) _ ?_ ?_
      · refine ⟨⟨ord0, _, hord0, hsv0, ⟨rfl, l2, Or.inl rfl, ⟨rfl, by simp [greedySeeds], _, rfl, by rw [l3 _ rfl]; rfl, by simp [greedySeeds]⟩, by simp [greedySeeds]⟩,
          hne, ⟨_, hcsr, fun u _ => rfl⟩, fun hu => ?_, fun _ => rfl⟩, hcap⟩
        obtain ⟨mx, hq⟩ := hq0 hu
        refine ⟨mx, _, hq _, fun x hx => ?_, fun i hi => absurd hi (by simp)⟩
        rw [indeg_eq_sumIf]
        refine sumIf_congr fun u hu hg => ?_
        simp only [true_iff]
        refine ⟨hu, canAdd_nil.2 ?_⟩
        have : x ∈ conflictRows rows nng.n u := by
          by_contra hx; exact hg (List.count_eq_zero.2 hx)
        exact ((mem_conflictRows h.csr.range hu).1 this).1
      · rintro pre v post st w3 hsplit ⟨hi, hc⟩
        obtain ⟨rfl, hlt⟩ := range_at hsplit
        refine ⟨exclusionStepDbg_eq h hids hnl1 hlt hi hc, (exclusionStep_room h.csr.range hids hlt hi hc).mono ?_⟩
        rintro (st | r) w' hh
        · simpa using hh
        · trivial

theorem findSeedsExclusionDbg_eq {cap : Nat} {w : World} (updating : Bool) (h : nng.Repr cfg rows) (hl : ∀ i ∈ nng.ids, i ∈ w.live) (h1 : 1 < nng.n)
    (hz : nng.n < cfg.sizeMax) (hc : 0 < cap) (ha : ∃ u x, u < nng.n ∧ x ∈ rows u ∧ x ≠ u) (hw : w.UncheckedOk) :
    findSeedsExclusionDbg cfg nng updating cap w = findSeedsExclusion cfg nng updating cap w := by
  have he : off rows nng.n ≠ 0 := by
    obtain ⟨u, x, hu, hx, hxu⟩ := ha
    exact off_ne_zero hu hx
  unfold findSeedsExclusionDbg findSeedsExclusion
  rw [asrtFind_bind h he hl h1 hc]
  refine mbind_eq rfl wpM_allocE fun ne w1 ⟨k1, k2, k3⟩ => ?_
  cases ne with
  | none => rfl
  | some ne =>
    dsimp only
    refine mbind_eq rfl (wpM_allocU (Q := fun r w2 => ∃ j, r = some ⟨j, Buf.raw nng.n⟩ ∧ w2.live = {j} + w1.live) (by intro x; rw [k1]; exact hw x)
      (fun j w2 l1 l3 l4 => ⟨j, rfl, l3⟩)) ?_
    rintro _ w2 ⟨j, rfl, l3⟩
    have hlw : ∀ x ∈ ne.id :: ptrIds (some ⟨j, (Buf.raw nng.n : Buf Nat)⟩) ++ nng.ids, x ∈ w2.live := by
      rw [l3, k2]
      intro x hx
      simp only [List.cons_append, List.mem_cons, List.mem_append, ptrIds, List.not_mem_nil, or_false, List.nil_append] at hx
      simp only [Multiset.mem_add, Multiset.mem_singleton, ptrOwn]
      rcases hx with hx | hx | hx
      · exact Or.inr (Or.inl hx)
      · exact Or.inl hx
      · exact Or.inr (Or.inr (hl x hx))
    refine mbind_eq (Q := fun _ w' => w' = w2) rfl (by unfold noIndexArray; dsimp only; rw [wpM_pure]) ?_
    rintro _ w3 rfl
    rw [asrtM_bind h.vertices]
    refine mbind_eq rfl (wpM_useK.2 ⟨hlw, (notExcludedK_spec h.csr (by rw [k3 _ rfl]; rfl) rfl).mono fun a ha => ⟨rfl, ha⟩⟩ : WpM _ w3 fun a w' => w' = w3 ∧ _) ?_
    rintro ⟨neb, ib, k⟩ w4 ⟨rfl, a1, a2, a3⟩
    dsimp only at a1 a2 a3 ⊢
    refine mbind_eq rfl (tailsToKeep_spec (Q := fun r w' => KeepArcs rows nng.n r.1 ∧ w'.live = ptrOwn r.2 + ({ne.id} + w.live)) ({ne.id} + w.live)
      (by rw [l3, k2]; rfl) a2 a3 fun keep idx w3 b1 b2 b3 b4 b5 => ⟨b1, b3⟩) ?_
    rintro ⟨keep, idx⟩ w5 ⟨b1, b3⟩
    dsimp only at b1 b3 ⊢
    have hl5 : ∀ i ∈ nng.ids, i ∈ w5.live := by
      intro x hx
      rw [b3]; exact Multiset.mem_add.2 (Or.inr (Multiset.mem_add.2 (Or.inr (hl x hx))))
    refine mbind_eq (exclusionGraphDbg_eq h hl5 b1 (by omega) hz ha) (exclusionGraph_spec h hl5 b1) ?_
    rintro (e | ex) w6 hg
    · rfl
    · obtain ⟨g1, g2, g3, g4, g5⟩ := hg
      dsimp only
      refine mbind_eq (Q := fun _ w' => w'.live = ex.own + ({ne.id} + w.live)) rfl (wpM_freePtr (ex.own + ({ne.id} + w.live)) (by rw [g2, b3]; abel) fun w7 m1 m2 m3 => m2) ?_
      intro _ w7 m2
      exact exclusionMainDbg_eq updating h a1 g4 g3 h1 hc ha (by rw [m2]; abel) hl

/-! ### Entry point -/

theorem findSeedsByDbg_eq {cap : Nat} {w : World} (m : SeedMethod) (h : nng.Repr cfg rows) (hnd : ∀ v, v < nng.n → (rows v).Nodup) (hl : ∀ i ∈ nng.ids, i ∈ w.live) (h1 : 1 < nng.n)
    (hz : nng.n < cfg.sizeMax) (hc : 0 < cap) (ha : ∃ u x, u < nng.n ∧ x ∈ rows u ∧ x ≠ u) (hw : m.IsExclusion → w.UncheckedOk) :
    findSeedsByDbg cfg nng m cap w = findSeedsBy cfg nng m cap w := by
  have he : off rows nng.n ≠ 0 := by
    obtain ⟨u, x, hu, hx, hxu⟩ := ha
    exact off_ne_zero hu hx
  cases m with
  | lexical => exact findSeedsLexicalDbg_eq h hnd he hl h1 hc
  | inwardsOrder => exact findSeedsInwardsDbg_eq false h hnd he hl h1 hc
  | inwardsUpdating => exact findSeedsInwardsDbg_eq true h hnd he hl h1 hc
  | exclusionOrder => exact findSeedsExclusionDbg_eq false h hl h1 hz hc ha (hw (Or.inl rfl))
  | exclusionUpdating => exact findSeedsExclusionDbg_eq true h hl h1 hz hc ha (hw (Or.inr rfl))

/-- Finding seeds in a digraph with at least one arc between different vertices: the assertions hold. -/
theorem findSeedsDbg_eq {cap : Nat} {w : World} (m : SeedMethod) (h : nng.Repr cfg rows) (hnd : ∀ v, v < nng.n → (rows v).Nodup) (hl : ∀ i ∈ nng.ids, i ∈ w.live) (h1 : 1 < nng.n)
    (hz : nng.n < cfg.sizeMax) (hc : 0 < cap) (ha : ∃ u x, u < nng.n ∧ x ∈ rows u ∧ x ≠ u) (hw : m.IsExclusion → w.UncheckedOk) :
    findSeedsDbg cfg nng m cap w = findSeeds cfg nng m cap w := by
  have he : off rows nng.n ≠ 0 := by
    obtain ⟨u, x, hu, hx, hxu⟩ := ha
    exact off_ne_zero hu hx
  unfold findSeedsDbg
  rw [asrtFind_bind h he hl h1 hc]
  unfold findSeeds
  refine mbind_eq (findSeedsByDbg_eq m h hnd hl h1 hz hc ha hw) (findSeedsBy_spec m cap h (fun _ => hnd) hl hw) ?_
  rintro (e | sr) w1 hp
  · rfl
  · obtain ⟨o, -, -, hi⟩ := hp
    dsimp only
    rw [asrtM_bind (p := sr.seeds ≠ none)]
    obtain ⟨b, hb, -⟩ := hi.holds.block
    rw [hb]; simp

end

end Scc
