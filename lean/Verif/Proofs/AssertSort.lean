/-
The priority queue of the functions that find seeds, with assertions: the same as without.
-/
import Verif.Model.AssertSeeds
import Verif.Proofs.AssertDigraph
import Verif.Proofs.SeedsFind

set_option linter.unusedSimpArgs false
set_option linter.unusedVariables false

namespace Scc

theorem Buf.set_some {α : Type} {b b' : Buf α} {i : Nat} {x : α} (h : b.set i x = some b') : i < b.len ∧ b' = b.upd i x := by
  have : Wp (b.set i x) (fun r => r = b') := ⟨b', h, rfl⟩
  rw [Buf.wp_set] at this
  exact ⟨this.1, this.2.symm⟩

/-- Rule for loops in which the invariant is only known to be kept when the step returns. -/
theorem foldlM_same {α σ : Type} {f g : σ → α → Option σ} (I : σ → Prop) (l : List α) {s : σ} (h0 : I s)
    (hs : ∀ a s, a ∈ l → I s → f s a = g s a ∧ ∀ s', g s a = some s' → I s') : l.foldlM f s = l.foldlM g s ∧ ∀ s', l.foldlM g s = some s' → I s' := by
  induction l generalizing s with
  | nil => exact ⟨rfl, fun s' h => by cases h; exact h0⟩
  | cons a l ih =>
    rw [List.foldlM_cons, List.foldlM_cons]
    obtain ⟨h1, h2⟩ := hs a s (by simp) h0
    rw [h1]
    cases hg : g s a with
    | none => exact ⟨rfl, fun s' h => by simp at h⟩
    | some s1 =>
      have := ih (h2 s1 hg) (fun b s hb => hs b s (by simp [hb]))
      exact this

theorem bucketSortLoopDbg_eq {start tmp c : Nat} {cnt : Buf Nat} (j : Nat) {sv vidx : Buf Nat} (hj : start ≤ j) (ht : cnt.get tmp = some c)
    (h : ∀ i, start ≤ i → i < j → ∃ a, sv.get i = some a ∧ cnt.get a = some c) :
    bucketSortLoopDbg start tmp cnt j sv vidx = bucketSortLoop start tmp j sv vidx := by
  induction j generalizing sv vidx with
  | zero => rfl
  | succ j ih =>
    unfold bucketSortLoopDbg bucketSortLoop
    refine ite_both (fun _ => rfl) fun he => ?_
    obtain ⟨a, h1, h2⟩ := h j (by omega) (by omega)
    rw [get_bind ht]
    refine get_both h1 ?_
    rw [get_bind h2, asrt_bind rfl]
    refine ite_both (fun _ => rfl) fun _ => ?_
    refine bind_eq_some fun sv' hsv => bind_eq_some fun x _ => bind_eq_some fun vidx' _ => ?_
    obtain ⟨-, rfl⟩ := Buf.set_some hsv
    refine ih (by omega) fun i h3 h4 => ?_
    rw [Buf.get_upd_ne _ _ (by omega)]
    exact h i h3 (by omega)

theorem bucketSortDbg_eq {n mx lo start s : Nat} {q : Queue} {ord pos f : Nat → Nat} (h : QOK false n mx lo q ord pos f) (hs : start ≤ s) (hsn : s < n)
    (hf : ∀ i, start ≤ i → i ≤ s → f (ord i) = f (ord s)) : bucketSortDbg start s q = bucketSort start s q := by
  unfold bucketSortDbg bucketSort
  refine get_both (h.sv s hsn) ?_
  rw [bucketSortLoopDbg_eq (c := f (ord s)) s hs (h.cnt _ (h.ok.ord_lt s hsn))]
  intro i h1 h2
  exact ⟨ord i, h.sv i (by omega), by rw [h.cnt _ (h.ok.ord_lt i (by omega)), hf i h1 (by omega)]⟩

theorem restoreOrderDbg_eq {st : Bool} {n mx p c src dst : Nat} {q : Queue} {ord pos f : Nat → Nat} (hs : Swapped st n mx p c src dst q ord pos f) (hst : st = true) :
    restoreOrderDbg p c src dst q = restoreOrder p c src dst q := by
  have h := hs.ok
  unfold restoreOrderDbg restoreOrder
  have hjoin : ∀ (x : Option Queue) (k : Queue → Option Queue), (if dst ≠ src then x >>= k else (pure q : Option Queue) >>= k) = (if dst ≠ src then x else pure q) >>= k := by
    intro x k; split <;> rfl
  dsimp only
  rw [hjoin, hjoin]
  refine obind_eq ?_ (restoreFirst_spec h hs.pd hs.ds hs.src_lt hs.count hs.seg (hs.tie hst)) ?_
  · refine ite_both (fun hne => ?_) (fun _ => rfl)
    have := hs.ds
    exact bucketSortDbg_eq h (by omega) hs.src_lt fun i h1 h2 => by rw [hs.seg i (by omega) h2, hs.seg src (by omega) le_rfl]
  rintro q1 ⟨hb1, ord1, pos1, hq1, hlow, hfo, htie1⟩
  have hsrc := hs.src_lt
  have hds := hs.ds
  have hpd := hs.pd
  have hdn : dst < n := by omega
  have hc := hs.count
  have hcm : c ≤ mx := by rw [← hc]; exact h.le _ (h.ok.ord_lt dst hdn)
  obtain ⟨B, hB, hBi⟩ := hq1.bk c hcm
  refine get_both hB ?_
  have hc1 : f (ord1 dst) = c := by rw [hfo dst hdn, hc]
  have second : ∀ bi B', bi.len = mx + 1 → (∀ b, b ≠ c → bi.get b = q1.bidx.get b) → bi.get c = some B' → p + 1 ≤ B' → (∀ i, p + 1 ≤ i → i < n → (i < B' ↔ f (ord1 i) < c)) →
      (bi.get c >>= fun b => bucketSortDbg b dst { q1 with bidx := bi }) = (bi.get c >>= fun b => bucketSort b dst { q1 with bidx := bi }) := by
    intro bi B' hbl hbo hbc hBp hBi'
    refine get_both hbc ?_
    have hq2 : QOK false n mx (p + 1) { q1 with bidx := bi } ord1 pos1 f :=
      ⟨hq1.sv_len, hq1.vidx_len, hq1.cnt_len, hbl, hq1.sv, hq1.vidx, hq1.cnt, hq1.ok, hq1.le, fun b hb => by
        by_cases hbc' : b = c
        · subst hbc'; exact ⟨B', hbc, hBi'⟩
        · obtain ⟨B2, g1, g2⟩ := hq1.bk b hb
          exact ⟨B2, by show bi.get b = _; rw [hbo b hbc', g1], g2⟩, fun hx => absurd hx Bool.false_ne_true⟩
    have hBd : B' ≤ dst := by
      by_contra hx
      have := (hBi' dst hpd hdn).1 (by omega)
      omega
    refine bucketSortDbg_eq hq2 hBd hdn fun i h1 h2 => ?_
    have h3 := hq1.sorted (i := i) (j := dst) (by omega) h2 hdn
    have h4 : ¬ f (ord1 i) < c := fun hx => by
      have := (hBi' i (by omega) (by omega)).2 hx; omega
    omega
  refine ite_both (fun hBp => ?_) (fun hBp => ?_)
  · have hset := Buf.set_eq q1.bidx (i := c) (p + 1) (by rw [hq1.bidx_len]; omega)
    refine get_both hset ?_
    refine second _ (p + 1) (by simpa using hq1.bidx_len) (fun b hb => Buf.get_upd_ne _ _ hb) (Buf.get_upd_self _ _ (by rw [hq1.bidx_len]; omega)) le_rfl (fun i h1 h2 => ⟨fun h3 => by omega, fun h3 => ?_⟩)
    have := (hBi i h1 h2).2 h3
    omega
  · exact second _ B hq1.bidx_len (fun _ _ => rfl) hB (by omega) hBi

theorem swapInSortDbg_eq {st : Bool} {n mx p v : Nat} {q : Queue} {ord pos f : Nat → Nat} (h : QOK st n mx (p + 1) q ord pos f) (hv : v < n) (hp : p < pos v) :
    swapInSortDbg p v q = swapInSort p v q := by
  have hsrc := h.ok.pos_lt v hv
  have hos := h.ok.ord_pos v hv
  have hcm := h.le v hv
  obtain ⟨B, hB, hBi⟩ := h.bk _ hcm
  have hBs : B ≤ pos v := by
    by_contra hx
    have := (hBi (pos v) (by omega) hsrc).1 (by omega)
    rw [hos] at this; omega
  unfold swapInSortDbg swapInSort
  refine get_both (h.vidx v hv) ?_
  rw [get_bind (h.sv _ hsrc), asrt_bind hos.symm]
  refine get_both (h.cnt v hv) ?_
  refine ite_both (fun _ => rfl) fun hc => ?_
  refine get_both hB ?_
  dsimp only
  have hd1 : B ≤ (if B ≤ p then p + 1 else B) ∧ p + 1 ≤ (if B ≤ p then p + 1 else B) ∧ (if B ≤ p then p + 1 else B) ≤ pos v := by split <;> omega
  have hgen : ∀ dst, B ≤ dst ∧ p + 1 ≤ dst ∧ dst ≤ pos v → dst < n ∧ f (ord dst) = f v := by
    intro dst hd
    refine ⟨by omega, ?_⟩
    have h1 := h.sorted (i := dst) (j := pos v) (by omega) (by omega) hsrc
    rw [hos] at h1
    have h2 : ¬ f (ord dst) < f v := fun hx => by
      have := (hBi dst (by omega) (by omega)).2 hx; omega
    omega
  obtain ⟨hdn, hfd⟩ := hgen _ hd1
  refine ite_both (fun _ => ?_) (fun _ => ?_)
  · refine bind_eq_some fun bi _ => ?_
    rw [get_bind (h.sv _ hsrc), get_bind (h.cnt _ (h.ok.ord_lt _ hsrc)), get_bind (h.sv _ hdn), get_bind (h.cnt _ (h.ok.ord_lt _ hdn)), asrt_bind (by rw [hos, hfd])]
    refine bind_eq_some fun bi' _ => bind_eq_some fun cnt _ => ?_
    rw [get_bind (h.sv _ hsrc), asrt_bind hos]
  · show (q.sv.get (pos v) >>= _) = _
    rw [get_bind (h.sv _ hsrc), get_bind (h.cnt _ (h.ok.ord_lt _ hsrc)), get_bind (h.sv _ hdn), get_bind (h.cnt _ (h.ok.ord_lt _ hdn)), asrt_bind (by rw [hos, hfd])]
    refine bind_eq_some fun bi' _ => bind_eq_some fun cnt _ => ?_
    rw [get_bind (h.sv _ hsrc), asrt_bind hos]

/-- Decreasing the count of a vertex: the assertions hold, and the queue stays in order if the call returns. -/
theorem decreaseVDbg_eq {st : Bool} {n mx p v : Nat} {q : Queue} {ord pos f : Nat → Nat} (h : QOK st n mx (p + 1) q ord pos f) (hv : v < n) (hp : p < pos v) :
    decreaseVDbg st p v q = decreaseV st p v q ∧
      ∀ q', decreaseV st p v q = some q' → ∃ ord' pos' f', QOK st n mx (p + 1) q' ord' pos' f' ∧ ∀ i, i ≤ p → ord' i = ord i := by
  by_cases hc : f v = 0
  · have h0 : swapInSort p v q = none := by
      unfold swapInSort
      rw [get_bind (h.vidx v hv), get_bind (h.cnt v hv), if_pos hc]
    unfold decreaseVDbg decreaseV
    rw [swapInSortDbg_eq h hv hp, h0]
    exact ⟨rfl, fun q' hq => by simp at hq⟩
  · constructor
    · unfold decreaseVDbg decreaseV
      refine obind_eq (swapInSortDbg_eq h hv hp) (swapInSort_spec h hv hp (by omega)) ?_
      rintro ⟨c, src, dst, q1⟩ ⟨ord', pos', hs, -⟩
      dsimp only at hs ⊢
      cases st with
      | false => rfl
      | true => rw [if_pos rfl, if_pos rfl, restoreOrderDbg_eq hs rfl]
    · intro q' hq
      obtain ⟨q2, h1, ord', pos', h2, h3⟩ := decreaseV_spec h hv hp (by omega)
      rw [hq] at h1
      cases h1
      exact ⟨ord', pos', _, h2, h3⟩

/-- The queue is in order, and the first `p + 1` positions are as in `ord`. -/
def QKeep (st : Bool) (n mx p : Nat) (ord : Nat → Nat) (q : Queue) : Prop := ∃ ord' pos' f', QOK st n mx (p + 1) q ord' pos' f' ∧ ∀ i, i ≤ p → ord' i = ord i

theorem QOK.keep {st : Bool} {n mx p : Nat} {q : Queue} {ord pos f : Nat → Nat} (h : QOK st n mx (p + 1) q ord pos f) : QKeep st n mx p ord q := ⟨ord, pos, f, h, fun _ _ => rfl⟩

section
variable {stb : Bool} {n mx p : Nat} {head tail : Buf Nat} {rows G : Nat → List Nat} {S : List Nat} {marks ne : Buf Bool} {q : Queue} {ord pos f : Nat → Nat}

/-- The assertions hold, and the queue stays in order if the call returns. -/
def Same (stb : Bool) (n mx p : Nat) (ord : Nat → Nat) (x y : Option Queue) : Prop := x = y ∧ ∀ q', y = some q' → QKeep stb n mx p ord q'

theorem Same.pure (h : QKeep stb n mx p ord q) : Same stb n mx p ord (pure q) (pure q) := ⟨rfl, fun q' hq => by cases hq; exact h⟩

theorem Same.bind {α : Type} {a : Option α} {f g : α → Option Queue} (h : ∀ x, a = some x → Same stb n mx p ord (f x) (g x)) : Same stb n mx p ord (a >>= f) (a >>= g) := by
  cases a with
  | none => exact ⟨rfl, fun q' hq => by simp at hq⟩
  | some x => exact h x rfl

theorem Same.fold {f g : Queue → Nat → Option Queue} (l : List Nat) (h : QKeep stb n mx p ord q) (hs : ∀ a q, a ∈ l → QKeep stb n mx p ord q → Same stb n mx p ord (f q a) (g q a)) :
    Same stb n mx p ord (l.foldlM f q) (l.foldlM g q) := foldlM_same (QKeep stb n mx p ord) l h hs

theorem QKeep.decrease (h : QKeep stb n mx p ord q) (hok : OrdOK n ord pos) {x : Nat} (hx : x < n) (hp : p < pos x) : Same stb n mx p ord (decreaseVDbg stb p x q) (decreaseV stb p x q) := by
  obtain ⟨ord', pos', f', hq, hfr⟩ := h
  obtain ⟨h1, h2⟩ := decreaseVDbg_eq hq hx ((frozen_pos hok hq.ok hfr hx).2 hp)
  refine ⟨h1, fun q' hq' => ?_⟩
  obtain ⟨o2, p2, f2, h3, h4⟩ := h2 q' hq'
  exact ⟨o2, p2, f2, h3, fun i hi => by rw [h4 i hi, hfr i hi]⟩

theorem QKeep.eligible (h : QKeep stb n mx p ord q) (hok : OrdOK n ord pos) {x : Nat} (hx : x < n) :
    Same stb n mx p ord (decreaseIfEligibleDbg stb tail marks p x q) (decreaseIfEligible stb tail marks p x q) := by
  unfold decreaseIfEligibleDbg decreaseIfEligible
  refine Same.bind fun m _ => ?_
  cases m with
  | true => exact Same.pure h
  | false =>
    simp only [Bool.false_eq_true, if_false]
    refine Same.bind fun i hi => ?_
    by_cases hpi : p < i
    · rw [if_pos hpi, if_pos hpi]
      refine Same.bind fun a _ => Same.bind fun b _ => ?_
      by_cases hab : a ≠ b
      · rw [if_pos hab, if_pos hab]
        refine h.decrease hok hx ?_
        obtain ⟨ord', pos', f', hq, hfr⟩ := h
        rw [hq.vidx x hx] at hi
        cases hi
        exact (frozen_pos hok hq.ok hfr hx).1 hpi
      · rw [if_neg hab, if_neg hab]; exact Same.pure h
    · rw [if_neg hpi, if_neg hpi]; exact Same.pure h

theorem QKeep.eligibleRow (hc : Csr n head tail rows) (h : QKeep stb n mx p ord q) (hok : OrdOK n ord pos) {u : Nat} (hu : u < n) :
    Same stb n mx p ord (rowLoop head tail u q fun x q => decreaseIfEligibleDbg stb tail marks p x q) (rowLoop head tail u q fun x q => decreaseIfEligible stb tail marks p x q) := by
  rw [rowLoop_eq hc hu, rowLoop_eq hc hu]
  exact Same.fold _ h fun a q ha hq => hq.eligible hok (hc.range u hu a ha)

theorem updateAfterSeedDbg_eq (hc : Csr n head tail rows) (hq : QOK stb n mx (p + 1) q ord pos f) {s : Nat} (hs : s < n) :
    updateAfterSeedDbg stb head tail marks p s q = updateAfterSeed stb head tail marks p s q := by
  unfold updateAfterSeedDbg updateAfterSeed
  rw [rowLoop_eq hc hs, rowLoop_eq hc hs]
  refine (Same.fold (stb := stb) (mx := mx) (p := p) (ord := ord) (n := n) _ hq.keep fun a q ha hk => ?_).1
  refine Same.bind fun i _ => ?_
  by_cases hpi : p < i
  · rw [if_pos hpi, if_pos hpi]
    exact hk.eligibleRow hc hq.ok (hc.range s hs a ha)
  · rw [if_neg hpi, if_neg hpi]; exact Same.pure hk

theorem updateAfterSkipDbg_eq (hc : Csr n head tail rows) (hq : QOK stb n mx (p + 1) q ord pos f) {v : Nat} (hv : v < n) :
    updateAfterSkipDbg stb head tail marks p v q = updateAfterSkip stb head tail marks p v q := by
  unfold updateAfterSkipDbg updateAfterSkip
  refine bind_eq_some fun m _ => ?_
  refine ite_both (fun _ => rfl) fun _ => ?_
  exact (hq.keep.eligibleRow hc hq.ok hv).1

theorem decreaseRecordedDbg_eq (hc : Csr n head tail G) (hne : NEOK n rows S ne) (hq : QOK stb n mx (p + 1) q ord pos f) {start stop : Nat} {l : List Nat}
    (hstop : stop = start + l.length) (hl : ∀ j a, l[j]? = some a → head.get (start + j) = some a) (hln : ∀ a ∈ l, a < n)
    (hpos : ∀ x, CanN n rows S x → p < pos x) : decreaseRecordedDbg stb head tail ne p start stop q = decreaseRecorded stb head tail ne p start stop q := by
  unfold decreaseRecordedDbg decreaseRecorded forNe
  subst hstop
  rw [if_pos (by omega), if_pos (by omega), show start + l.length - start = l.length by omega,
    foldlM_range'_get head (fun u q => rowLoop head tail u q fun x q => do let e ← ne.get x; if e then decreaseV stb p x q else pure q) l start q hl,
    foldlM_range'_get head (fun u q => rowLoop head tail u q fun x q => do let e ← ne.get x; if e then decreaseVDbg stb p x q else pure q) l start q hl]
  refine (Same.fold (stb := stb) (mx := mx) (p := p) (ord := ord) (n := n) l hq.keep fun u q hu hk => ?_).1
  rw [rowLoop_eq hc (hln u hu), rowLoop_eq hc (hln u hu)]
  refine Same.fold _ hk fun x q hx hk => ?_
  have hxn := hc.range u (hln u hu) x hx
  refine Same.bind fun e he => ?_
  rw [hne.get x hxn] at he
  cases he
  by_cases hcan : CanAdd rows S x
  · rw [if_pos (by simpa using hcan), if_pos (by simpa using hcan)]
    exact hk.decrease hq.ok hxn (hpos x ⟨hxn, hcan⟩)
  · rw [if_neg (by simpa using hcan), if_neg (by simpa using hcan)]
    exact Same.pure hk

theorem excludeUpdatingDbg_eq (hr : ∀ v, v < n → ∀ a ∈ rows v, a < n) (hc : Csr n head tail G) {v : Nat} (hv : v < n) (hadd : CanAdd rows S v)
    (hG : ∀ u, CanN n rows S u → G u = conflictRows rows n u)
    (hne : ne.len = n) (hg : ∀ x, x < n → ne.get x = some (decide (CanAdd rows S x ∧ x ≠ v)))
    (hq : QOK stb n mx (p + 1) q ord pos f) (hpos : ∀ x, CanN n rows (S ++ [v]) x → p < pos x) :
    excludeUpdatingDbg stb head tail ne p v q = excludeUpdating stb head tail ne p v q := by
  have hGv := hG v ⟨hv, hadd⟩
  unfold excludeUpdatingDbg excludeUpdating
  refine obind_eq rfl (excludeRecord_spec hc hv (by rw [hGv]; exact nodup_conflictRows) (fun x => CanAdd rows S x ∧ x ≠ v) hne hg) ?_
  rintro ⟨ne', head', start, stop⟩ ⟨h1, h2, h3, h4, h5, row, h6⟩
  dsimp only at h1 h2 h3 h4 h5 h6 ⊢
  subst h3
  have hne' : NEOK n rows (S ++ [v]) ne' := by
    refine ⟨h1, fun x hx => ?_⟩
    rw [h2 x hx]
    simp only [Option.some.injEq, decide_eq_decide]
    rw [canAdd_snoc_conflict hr hv hx hadd.1, hGv, and_assoc]
  rw [decreaseRecordedDbg_eq h6 hne' hq h4 h5 (fun a ha => hc.range v hv a (List.mem_of_mem_filter ha)) hpos]

theorem checkSortDbg_ok (h : QOK true n mx p q ord pos f) (hp : p < n) : checkSortDbg p (n - 1) q = some () := by
  have : Wp (checkSortDbg p (n - 1) q) (fun _ => True) := by
    unfold checkSortDbg
    refine wp_forNe (fun _ _ => True) (by omega) trivial ?_ (fun _ _ => trivial)
    intro i _ h1 h2 _
    have hs := h.sorted (i := i) (j := i + 1) h1 (by omega) (by omega)
    rw [get_bind (h.sv i (by omega)), get_bind (h.sv (i + 1) (by omega)), get_bind (h.cnt _ (h.ok.ord_lt i (by omega))), get_bind (h.cnt _ (h.ok.ord_lt (i + 1) (by omega))), asrt_bind hs]
    unfold asrt
    rw [if_pos (fun he => h.tie rfl i (i + 1) h1 (by omega) (by omega) he), wp_some]
    trivial
  obtain ⟨a, ha, -⟩ := this
  exact ha

theorem markNeighborsDbg_eq (hc : Csr n head tail rows) (hm : MarksOK n rows S marks) {v : Nat} (hv : v < n) (hnd : (rows v).Nodup) (hadd : CanAdd rows S v) :
    markNeighborsDbg head tail v marks = markNeighbors head tail v marks := by
  have hfree : ∀ x, x ∈ closedNbr rows v → ¬ Captured rows S x := by
    rintro x hx ⟨s, hs, hxs⟩
    exact hadd.2 s hs x hx hxs
  unfold markNeighborsDbg markNeighbors
  rw [get_bind (hm.get v hv), asrt_bind (by simpa using hfree v (by simp [closedNbr])), rowLoop_eq hc hv, rowLoop_eq hc hv]
  congr 1
  refine foldlM_eq (fun pre (m : Buf Bool) => m.len = n ∧ ∀ x, x < n → m.get x = some (decide (Captured rows S x ∨ x ∈ pre))) (rows v)
    ⟨hm.len, fun x hx => by simpa using hm.get x hx⟩ ?_
  rintro pre a post m hsplit ⟨h1, h2⟩
  have hav : a ∈ rows v := by rw [hsplit]; simp
  have ha : a < n := hc.range v hv a hav
  have hap : a ∉ pre := by
    rw [hsplit] at hnd
    intro hx
    exact (List.nodup_append.1 hnd).2.2 a hx a (by simp) rfl
  constructor
  · rw [get_bind (h2 a ha), asrt_bind]
    simp only [decide_eq_false_iff_not, not_or]
    exact ⟨hfree a (by simp [closedNbr, hav]), hap⟩
  · rw [Buf.wp_set]
    refine ⟨by omega, by simpa using h1, fun x hx => ?_⟩
    by_cases hxa : x = a
    · subst hxa; rw [Buf.get_upd_self _ _ (by omega)]; simp
    · rw [Buf.get_upd_ne _ _ hxa, h2 x hx]; simp [hxa]

end

end Scc
