/-
`scc_check_clustering`: the loops, and the whole function.
-/
import Verif.Spec.Check
import Verif.Proofs.Call
import Verif.Proofs.RunFacts

set_option linter.unusedSimpArgs false
set_option linter.unusedVariables false

namespace Scc

variable {F : Type}

theorem members_succ (b : Buf Int) (n c : Nat) : members b (n + 1) c = members b n c ++ if b.get n = some (c : Int) then [n] else [] := by
  unfold members
  rw [List.range_succ, List.filter_append]
  congr 1
  by_cases h : b.get n = some (c : Int) <;> simp [h]

theorem labelsInRange_spec {cfg : Cfg} {n k : Nat} {b : Buf Int} (hk : 0 < k) (hf : ∀ v, v < n → ∃ l, b.get v = some l) :
    Wp (labelsInRange cfg n k b) fun r => r = true ↔ ValidLabels cfg b n k := by
  unfold labelsInRange
  rw [wp_bind]
  refine wp_forLtB (fun i _ => ∀ v, v < i → Unassigned cfg b v ∨ ∃ c, c < k ∧ b.get v = some (c : Int)) (fun _ => ¬ ValidLabels cfg b n k) (Nat.zero_le _) (by simp) ?_ ?_ ?_
  · intro i s _ hi hI
    obtain ⟨l, hl⟩ := hf i hi
    rw [wp_bind, wp_eq hl]
    have next : (Unassigned cfg b i ∨ ∃ c, c < k ∧ b.get i = some (c : Int)) → ∀ v, v < i + 1 → Unassigned cfg b v ∨ ∃ c, c < k ∧ b.get v = some (c : Int) := by
      intro h v hv
      by_cases hvi : v = i
      · rw [hvi]; exact h
      · exact hI v (by omega)
    by_cases h1 : 0 < l ∧ l < (k : Int)
    · rw [if_pos h1, wp_pure]
      exact next (Or.inr ⟨l.toNat, by omega, by rw [hl]; congr 1; omega⟩)
    · rw [if_neg h1]
      by_cases h2 : l = 0
      · rw [if_pos h2, wp_pure]
        exact next (Or.inr ⟨0, hk, by rw [hl, h2]; rfl⟩)
      · rw [if_neg h2]
        by_cases h3 : l = cfg.na
        · rw [if_pos h3, wp_pure]; exact next (Or.inl (by rw [Unassigned, hl, h3]))
        · rw [if_neg h3, wp_pure]
          intro h
          rcases h i hi with h | ⟨c, hc, h⟩
          · rw [Unassigned, hl] at h; exact h3 (by simpa using h)
          · rw [hl] at h; have : l = (c : Int) := by simpa using h
            omega
  · intro s hI; simp only [wp_pure, true_iff]; exact hI
  · intro r hr; simp only [wp_pure, Bool.false_eq_true, false_iff]; exact hr

theorem primaryAssigned_spec {cfg : Cfg} {n : Nat} {b : Buf Int} {pr : Option (Buf Nat)} {len : Nat} {P : List Nat} (hf : ∀ v, v < n → ∃ l, b.get v = some l)
    (hp : ∀ pb, pr = some pb → P.length = len ∧ ∀ (i x : Nat), P[i]? = some x → pb.get i = some x) (hr : ∀ x ∈ P, x < n) :
    Wp (primaryAssigned cfg pr len b) fun r => r = true ↔ (pr ≠ none → ∀ v ∈ P, ¬ Unassigned cfg b v) := by
  unfold primaryAssigned
  cases pr with
  | none => dsimp only; rw [wp_some]; simp
  | some pb =>
    obtain ⟨hl, hg⟩ := hp pb rfl
    dsimp only
    rw [wp_bind]
    refine wp_forLtB (fun i _ => ∀ j x, j < i → P[j]? = some x → ¬ Unassigned cfg b x) (fun _ => ∃ v ∈ P, Unassigned cfg b v) (Nat.zero_le _) (by simp) ?_ ?_ ?_
    · intro i s _ hi hI
      have hx : P[i]? = some P[i] := List.getElem?_eq_getElem (by omega)
      obtain ⟨l, hlx⟩ := hf P[i] (hr _ (List.getElem_mem _))
      rw [wp_bind, wp_eq (hg i _ hx), wp_bind, wp_eq hlx]
      by_cases h : l = cfg.na
      · rw [if_pos h, wp_pure]; exact ⟨P[i], List.getElem_mem _, by rw [Unassigned, hlx, h]⟩
      · rw [if_neg h, wp_pure]
        intro j x hj hjx
        by_cases hji : j = i
        · subst hji
          rw [hx] at hjx; cases hjx
          rw [Unassigned, hlx]; simpa using h
        · exact hI j x (by omega) hjx
    · intro s hI
      simp only [wp_pure, true_iff]
      intro _ v hv
      obtain ⟨j, hj, rfl⟩ := List.mem_iff_getElem.1 hv
      exact hI j _ (by omega) (List.getElem?_eq_getElem hj)
    · rintro r ⟨v, hv, hu⟩
      simp only [wp_pure, Bool.false_eq_true, false_iff]
      intro h; exact h nofun v hv hu

theorem labelIdx_nat (c : Nat) : labelIdx (c : Int) = some c := by simp [labelIdx]

/-- A label that is valid and not "not available" is a cluster. -/
theorem ValidLabels.case {cfg : Cfg} (hcfg : cfg.Valid) {b : Buf Int} {n k : Nat} (h : ValidLabels cfg b n k) (hk : k ≤ cfg.clabelMax) {v : Nat} (hv : v < n) :
    b.get v = some cfg.na ∧ (∀ c, c < k → b.get v ≠ some (c : Int)) ∨ ∃ c, c < k ∧ b.get v = some (c : Int) ∧ (c : Int) ≠ cfg.na := by
  have hne : ∀ c, c < k → (c : Int) ≠ cfg.na := by
    intro c hc h
    have := hcfg.na_out
    omega
  rcases h v hv with h | ⟨c, hc, h⟩
  · refine Or.inl ⟨h, fun c hc h' => ?_⟩
    rw [h] at h'
    exact hne c hc (by simpa using h'.symm)
  · exact Or.inr ⟨c, hc, h, hne c hc⟩

theorem countSizes_spec {cfg : Cfg} (hcfg : cfg.Valid) {n k : Nat} {b : Buf Int} (h : ValidLabels cfg b n k) (hk : k ≤ cfg.clabelMax) :
    Wp (countSizes cfg n b (Buf.fill k 0)) fun s => s.len = k ∧ ∀ c, c < k → s.get c = some (members b n c).length := by
  unfold countSizes
  refine wp_forLt (fun i s => s.len = k ∧ ∀ c, c < k → s.get c = some (members b i c).length) (Nat.zero_le _) ⟨rfl, fun c hc => by simp [hc, members]⟩ ?_ (fun s h => h)
  rintro i s _ hi ⟨h1, h2⟩
  rcases h.case hcfg hk hi with ⟨hl, hno⟩ | ⟨c, hc, hl, hne⟩
  · rw [wp_bind, wp_eq hl, if_neg (by simp), wp_pure]
    refine ⟨h1, fun c hc => ?_⟩
    rw [members_succ, if_neg (hno c hc), List.append_nil, h2 c hc]
  · rw [wp_bind, wp_eq hl, if_pos hne, wp_bind, labelIdx_nat, wp_some, wp_bind, wp_eq (h2 c hc), Buf.wp_set]
    refine ⟨by omega, by simpa using h1, fun d hd => ?_⟩
    rw [members_succ, hl]
    by_cases hdc : d = c
    · subst hdc
      rw [Buf.get_upd_self _ _ (by omega), if_pos rfl]
      simp
    · rw [Buf.get_upd_ne _ _ hdc, h2 d hd, if_neg (by simp; omega), List.append_nil]

theorem sizesOk_spec {k S : Nat} {s : Buf Nat} {f : Nat → Nat} (h : ∀ c, c < k → s.get c = some (f c)) :
    Wp (sizesOk k S s) fun r => r = true ↔ ∀ c, c < k → S ≤ f c := by
  unfold sizesOk
  rw [wp_bind]
  refine wp_forLtB (fun i _ => ∀ c, c < i → S ≤ f c) (fun _ => ∃ c, c < k ∧ f c < S) (Nat.zero_le _) (by simp) ?_ ?_ ?_
  · intro i s _ hi hI
    rw [wp_bind, wp_eq (h i hi)]
    by_cases hlt : f i < S
    · rw [if_pos hlt, wp_pure]; exact ⟨i, hi, hlt⟩
    · rw [if_neg hlt, wp_pure]
      intro c hc
      by_cases hci : c = i
      · subst hci; omega
      · exact hI c (by omega)
  · intro s hI; simp only [wp_pure, true_iff]; exact hI
  · rintro r ⟨c, hc, hlt⟩
    simp only [wp_pure, Bool.false_eq_true, false_iff]
    intro h'; exact absurd (h' c hc) (by omega)

/-- The number of members of a cluster that have a given type. -/
def typeSize (b : Buf Int) (n : Nat) (lab : Nat → Nat) (i t : Nat) : Nat := (members b n i).countP fun v => lab v = t

theorem cell_inj {T c d t u : Nat} (ht : t < T) (hu : u < T) (h : c * T + t = d * T + u) : c = d ∧ t = u := by
  have h1 : (c * T + t) / T = c := by rw [Nat.mul_comm, Nat.mul_add_div (by omega), Nat.div_eq_of_lt ht, Nat.add_zero]
  have h2 : (d * T + u) / T = d := by rw [Nat.mul_comm, Nat.mul_add_div (by omega), Nat.div_eq_of_lt hu, Nat.add_zero]
  have : c = d := by rw [← h1, ← h2, h]
  subst this
  exact ⟨rfl, by omega⟩

theorem cell_lt {T k c t : Nat} (hc : c < k) (ht : t < T) : c * T + t < T * k := by
  calc c * T + t < c * T + T := by omega
    _ = (c + 1) * T := by rw [Nat.succ_mul]
    _ ≤ k * T := Nat.mul_le_mul_right _ hc
    _ = T * k := Nat.mul_comm _ _

theorem countTypeSizes_spec {cfg : Cfg} (hcfg : cfg.Valid) {n k T : Nat} {b : Buf Int} (h : ValidLabels cfg b n k) (hk : k ≤ cfg.clabelMax) {types : Buf Nat} {lab : Nat → Nat}
    (ht : ∀ v, v < n → types.get v = some (lab v) ∧ lab v < T) :
    Wp (countTypeSizes cfg n T b types (Buf.fill (T * k) 0)) fun s => s.len = T * k ∧ ∀ c, c < k → ∀ t, t < T → s.get (c * T + t) = some (typeSize b n lab c t) := by
  unfold countTypeSizes
  refine wp_forLt (fun i s => s.len = T * k ∧ ∀ c, c < k → ∀ t, t < T → s.get (c * T + t) = some (typeSize b i lab c t)) (Nat.zero_le _)
    ⟨rfl, fun c hc t ht => by simp [cell_lt hc ht, typeSize, members]⟩ ?_ (fun s h => h)
  rintro i s _ hi ⟨h1, h2⟩
  rcases h.case hcfg hk hi with ⟨hl, hno⟩ | ⟨c, hc, hl, hne⟩
  · rw [wp_bind, wp_eq hl, if_neg (by simp), wp_pure]
    refine ⟨h1, fun c hc t ht => ?_⟩
    rw [typeSize, members_succ, if_neg (hno c hc), List.append_nil]; exact h2 c hc t ht
  · obtain ⟨ht1, ht2⟩ := ht i hi
    rw [wp_bind, wp_eq hl, if_pos hne, wp_bind, labelIdx_nat, wp_some, wp_bind, wp_eq ht1, wp_bind, wp_eq (h2 c hc _ ht2), Buf.wp_set]
    have hlt := cell_lt hc ht2
    refine ⟨by omega, by simpa using h1, fun d hd t ht' => ?_⟩
    rw [show typeSize b (i + 1) lab d t = (members b (i + 1) d).countP fun v => lab v = t from rfl, members_succ, hl]
    by_cases hdc : d = c
    · subst hdc
      rw [if_pos rfl, List.countP_append]
      by_cases htt : t = lab i
      · subst htt
        rw [Buf.get_upd_self _ _ (by omega)]
        simp [typeSize]
      · rw [Buf.get_upd_ne _ _ (by omega), h2 d hd t ht']
        simp only [typeSize, List.countP_cons, List.countP_nil, decide_eq_true_eq]
        rw [if_neg fun h => htt h.symm]; rfl
    · rw [Buf.get_upd_ne _ _ (fun he => hdc (cell_inj ht' ht2 he).1), h2 d hd t ht', if_neg (by simp; omega), List.append_nil, typeSize]

theorem sum_typeSize {b : Buf Int} {n T : Nat} {lab : Nat → Nat} (hlab : ∀ v, v < n → lab v < T) (i : Nat) : sumTo (typeSize b n lab i) T = (members b n i).length := by
  have key : ∀ l : List Nat, (∀ v ∈ l, lab v < T) → sumTo (fun t => l.countP fun v => lab v = t) T = l.length := by
    intro l
    induction l with
    | nil => intro _; simp [sumTo]
    | cons x l ih =>
      intro hl
      have e : ∀ S, sumTo (fun t => (x :: l).countP fun v => lab v = t) S = sumTo (fun t => l.countP fun v => lab v = t) S + if lab x < S then 1 else 0 := by
        intro S
        induction S with
        | zero => simp [sumTo]
        | succ S ihS =>
          rw [sumTo_succ, sumTo_succ, ihS, List.countP_cons]
          by_cases h1 : lab x < S
          · rw [if_pos h1, if_pos (show lab x < S + 1 by omega)]; simp [show lab x ≠ S by omega]; omega
          · by_cases h2 : lab x = S
            · rw [if_neg h1, if_pos (show lab x < S + 1 by omega)]; simp [h2]; omega
            · rw [if_neg h1, if_neg (show ¬ lab x < S + 1 by omega)]; simp [h2]
      rw [e, ih fun v hv => hl v (by simp [hv]), if_pos (hl x (by simp))]; rfl
  exact key _ fun v hv => hlab v (mem_members.1 hv).1

theorem clusterTypesOk_spec {T S i : Nat} {tcs s : Buf Nat} {f c : Nat → Nat} (hs : ∀ t, t < T → s.get (i * T + t) = some (f t)) (hc : ∀ t, t < T → tcs.get t = some (c t)) :
    Wp (clusterTypesOk T S tcs s i) fun r => r = true ↔ (∀ t, t < T → c t ≤ f t) ∧ S ≤ sumTo f T := by
  unfold clusterTypesOk
  rw [wp_bind]
  refine wp_forLtB (fun t total => (∀ u, u < t → c u ≤ f u) ∧ total = sumTo f t) (fun _ => ∃ t, t < T ∧ f t < c t) (Nat.zero_le _) (by simp [sumTo]) ?_ ?_ ?_
  · rintro t total _ ht ⟨h1, h2⟩
    rw [wp_bind, wp_eq (hs t ht), wp_bind, wp_eq (hc t ht)]
    by_cases hlt : f t < c t
    · rw [if_pos hlt, wp_pure]; exact ⟨t, ht, hlt⟩
    · rw [if_neg hlt, wp_pure]
      refine ⟨fun u hu => ?_, by rw [sumTo_succ, h2]⟩
      by_cases hut : u = t
      · subst hut; omega
      · exact h1 u (by omega)
  · rintro total ⟨h1, h2⟩; rw [wp_pure, decide_eq_true_eq, h2]; exact ⟨fun h => ⟨h1, h⟩, fun h => h.2⟩
  · rintro r ⟨t, ht, hlt⟩
    simp only [wp_pure, Bool.false_eq_true, false_iff]
    intro h; exact absurd (h.1 t ht) (by omega)

theorem typeSizesOk_spec {k T S : Nat} {tcs s : Buf Nat} {f : Nat → Nat → Nat} {c : Nat → Nat} (hs : ∀ i, i < k → ∀ t, t < T → s.get (i * T + t) = some (f i t))
    (hc : ∀ t, t < T → tcs.get t = some (c t)) :
    Wp (typeSizesOk k T S tcs s) fun r => r = true ↔ ∀ i, i < k → (∀ t, t < T → c t ≤ f i t) ∧ S ≤ sumTo (f i) T := by
  unfold typeSizesOk
  rw [wp_bind]
  refine wp_forLtB (fun i _ => ∀ j, j < i → (∀ t, t < T → c t ≤ f j t) ∧ S ≤ sumTo (f j) T) (fun _ => ∃ i, i < k ∧ ¬ ((∀ t, t < T → c t ≤ f i t) ∧ S ≤ sumTo (f i) T))
    (Nat.zero_le _) (by simp) ?_ ?_ ?_
  · intro i u _ hi hI
    rw [wp_bind]
    refine (clusterTypesOk_spec (hs i hi) hc).mono fun r hr => ?_
    cases r with
    | true =>
      rw [if_pos rfl, wp_pure]
      intro j hj
      by_cases hji : j = i
      · subst hji; exact hr.1 rfl
      · exact hI j (by omega)
    | false =>
      rw [if_neg Bool.false_ne_true, wp_pure]
      exact ⟨i, hi, fun h => Bool.false_ne_true (hr.2 h)⟩
  · intro u hI; simp only [wp_pure, true_iff]; exact hI
  · rintro r ⟨i, hi, h⟩
    simp only [wp_pure, Bool.false_eq_true, false_iff]
    intro h'; exact h (h' i hi)

/-- The counting part. -/
theorem checkCounts_spec {cfg : Cfg} (hcfg : cfg.Valid) {cl : Clustering} {o : Options F} {lb : Blk Int} {lab c : Nat → Nat} {w : World} (hlb : cl.label = some lb) (hlive : lb.id ∈ w.live)
    (h : ValidLabels cfg lb.buf cl.n cl.numClusters) (hk : cl.numClusters ≤ cfg.clabelMax)
    (ht : 2 ≤ o.numTypes → ∃ tb cb, o.typeLabels = some tb ∧ o.typeConstraints = some cb ∧ (∀ v, v < cl.n → tb.get v = some (lab v) ∧ lab v < o.numTypes) ∧
      ∀ t, t < o.numTypes → cb.get t = some (c t)) (hroom : 2 ≤ o.numTypes → o.numTypes * cl.numClusters ≤ cfg.sizeMax) :
    WpM (checkCounts cfg cl o) w fun r w' => w'.live = w.live ∧ (r.1 = .ok ∧ w'.err = w.err ∧ (r.2 = true ↔ (∀ i, i < cl.numClusters → o.sizeConstraint ≤ (members lb.buf cl.n i).length) ∧
        (2 ≤ o.numTypes → ∀ i, i < cl.numClusters → ∀ t, t < o.numTypes → c t ≤ typeSize lb.buf cl.n lab i t)) ∨
      r = (.noMemory, false) ∧ ¬ w.NoFail ∧ w'.err.code = .noMemory) := by
  unfold checkCounts
  by_cases h2 : o.numTypes < 2
  · rw [if_pos h2, wpM_bind]
    refine wpM_alloc (fun w1 hn f1 l1 e1 => ?_) fun i w1 f1 l1 e1 => ?_
    · dsimp only
      rw [wpM_bind]
      refine wpM_mkErr fun w2 f2 l2 e2 => ?_
      rw [wpM_pure]
      exact ⟨by rw [l2, l1], Or.inr ⟨rfl, hn, by rw [e2]⟩⟩
    · dsimp only
      rw [wpM_bind, wpM_useK]
      refine ⟨by simp [l1, hlb, ptrIds, hlive], ?_⟩
      rw [hlb]
      refine (countSizes_spec hcfg h hk).mono fun s hs => ?_
      rw [wpM_bind, wpM_useK]
      refine ⟨by simp [l1], (sizesOk_spec (S := o.sizeConstraint) hs.2).mono fun r hr => ?_⟩
      rw [wpM_bind]
      refine wpM_freeId w.live l1 fun w2 f2 l2 e2 => ?_
      rw [wpM_pure]
      refine ⟨l2, Or.inl ⟨rfl, by rw [e2, e1], ?_⟩⟩
      dsimp only
      rw [hr]
      exact ⟨fun h => ⟨h, fun h' => by omega⟩, fun h => h.1⟩
  · rw [if_neg h2, wpM_bind]
    have h2' : 2 ≤ o.numTypes := by omega
    obtain ⟨tb, cb, htb, hcb, htg, hcg⟩ := ht h2'
    refine wpM_alloc (fun w1 hn f1 l1 e1 => ?_) fun i w1 f1 l1 e1 => ?_
    · dsimp only
      rw [wpM_bind]
      refine wpM_mkErr fun w2 f2 l2 e2 => ?_
      rw [wpM_pure]
      exact ⟨by rw [l2, l1], Or.inr ⟨rfl, hn, by rw [e2]⟩⟩
    · dsimp only
      rw [wpM_bind, wpM_useK]
      refine ⟨by simp [l1, hlb, ptrIds, hlive], ?_⟩
      rw [hlb, htb, hcb, Nat.mod_eq_of_lt (by have := hroom h2'; omega)]
      refine (countTypeSizes_spec hcfg h hk htg).mono fun s hs => ?_
      rw [wpM_bind, wpM_useK]
      refine ⟨by simp [l1], (typeSizesOk_spec (S := o.sizeConstraint) hs.2 hcg).mono fun r hr => ?_⟩
      rw [wpM_bind]
      refine wpM_freeId w.live l1 fun w2 f2 l2 e2 => ?_
      rw [wpM_pure]
      refine ⟨l2, Or.inl ⟨rfl, by rw [e2, e1], ?_⟩⟩
      dsimp only
      rw [hr]
      have hsum := sum_typeSize (b := lb.buf) (lab := lab) fun v hv => (htg v hv).2
      constructor
      · intro h; exact ⟨fun i hi => by rw [← hsum i]; exact (h i hi).2, fun _ i hi => (h i hi).1⟩
      · rintro ⟨ha, hb⟩ i hi; exact ⟨hb h2' i hi, by rw [hsum i]; exact ha i hi⟩

/-- Possible outcomes of `scc_check_clustering` when it does not report "ok". -/
def CheckReject [FloatOps F] (cfg : Cfg) (o : Options F) (cl : Clustering) (P : List Nat) (w : World) (e : ErrorCode) : Prop :=
  e = .invalidInput ∧ (cl.isInitialized cfg = false ∨ cl.numClusters = 0) ∨ ¬ ValidOptions o cl.n P ∧ RejectCode o cl.n P e ∨ e = .noMemory ∧ ¬ w.NoFail

theorem CheckReject.ne_ok [FloatOps F] {cfg : Cfg} {o : Options F} {cl : Clustering} {P : List Nat} {w : World} {e : ErrorCode} (h : CheckReject cfg o cl P w e) : e ≠ .ok := by
  rcases h with ⟨rfl, -⟩ | ⟨-, h⟩ | ⟨rfl, -⟩
  · nofun
  · rcases h with h | h | h | h <;> simp [h]
  · nofun

theorem checkClustering_spec [FloatOps F] {cfg : Cfg} {o : Options F} {ob : ClObj} {P : List Nat} {lab c : Nat → Nat} {w : World} (hc : CheckOk cfg o ob P lab c w) :
    WpM (checkClustering cfg (some ob) o true) w fun r w' => w'.live = w.live ∧
      (r.1 = .ok ∧ w'.err = w.err ∧ ob.cl.isInitialized cfg = true ∧ 0 < ob.cl.numClusters ∧ ValidOptions o ob.cl.n P ∧
        (∃ lb ok, ob.cl.label = some lb ∧ r.2 = some ok ∧ (ok = true ↔ MeetsConstraints cfg o P lab c ob.cl.n ob.cl.numClusters lb.buf)) ∨
      CheckReject cfg o ob.cl P w r.1 ∧ r.2 = some false ∧ w'.err.code = r.1) := by
  obtain ⟨M, hM⟩ := Multiset.le_iff_exists_add.1 hc.live
  unfold checkClustering
  rw [if_neg (by simp), wpM_bind]
  unfold isInitialized
  rw [wpM_bind, touch, wpM_useK]
  refine ⟨by simp [hM], ?_⟩
  rw [wp_some, wpM_pure]
  cases hi : ob.cl.isInitialized cfg with
  | false =>
    dsimp only
    rw [wpM_bind]
    refine wpM_mkErr fun w1 f1 l1 e1 => ?_
    rw [wpM_pure]
    exact ⟨l1, Or.inr ⟨Or.inl ⟨rfl, Or.inl hi⟩, rfl, by rw [e1]⟩⟩
  | true =>
    dsimp only
    by_cases h0 : ob.cl.numClusters = 0
    · rw [if_pos h0, wpM_bind]
      refine wpM_mkErr fun w1 f1 l1 e1 => ?_
      rw [wpM_pure]
      exact ⟨l1, Or.inr ⟨Or.inl ⟨rfl, Or.inr h0⟩, rfl, by rw [e1]⟩⟩
    · rw [if_neg h0, wpM_bind]
      refine (checkClusterOptions_spec hc.arrays w).mono ?_
      rintro e w1 ⟨f1, l1, ⟨rfl, rfl, hv⟩ | ⟨he, herr, hnv, hrc⟩⟩
      · rw [if_neg (by simp)]
        have hini := isInitialized_iff.1 hi
        obtain ⟨lb, hlb⟩ : ∃ lb, ob.cl.label = some lb := by
          cases hl : ob.cl.label with
          | none => exact absurd hl (hini.2.2.2.2 (by omega))
          | some lb => exact ⟨lb, rfl⟩
        have hlive : lb.id ∈ w1.live := by rw [hM, hlb]; simp
        have hids : ∀ i ∈ ptrIds ob.cl.label, i ∈ w1.live := by simp [hlb, ptrIds, hlive]
        have hf := hc.filled (by omega) lb hlb
        rw [wpM_bind, wpM_useK]
        refine ⟨hids, ?_⟩
        rw [hlb]
        refine (labelsInRange_spec (by omega) hf).mono fun r1 hr1 => ?_
        cases r1 with
        | false =>
          simp only [Bool.not_false, ↓reduceIte, wpM_pure]
          refine ⟨trivial, Or.inl ⟨trivial, trivial, trivial, by omega, hv, lb, false, rfl, rfl, ?_⟩⟩
          exact ⟨nofun, fun h => absurd (hr1.2 h.labels) nofun⟩
        | true =>
          simp only [Bool.not_true, Bool.false_eq_true, ↓reduceIte, wpM_bind]
          rw [← hlb, wpM_useK]
          refine ⟨hids, ?_⟩
          rw [hlb]
          refine (primaryAssigned_spec hf hc.arrays.primary hc.arrays.range).mono fun r2 hr2 => ?_
          cases r2 with
          | false =>
            simp only [Bool.not_false, ↓reduceIte, wpM_pure]
            refine ⟨trivial, Or.inl ⟨trivial, trivial, trivial, by omega, hv, lb, false, rfl, rfl, ?_⟩⟩
            exact ⟨nofun, fun h => absurd (hr2.2 h.primary) nofun⟩
          | true =>
            simp only [Bool.not_true, Bool.false_eq_true, ↓reduceIte, wpM_bind]
            have hty : 2 ≤ o.numTypes → ∃ tb cb, o.typeLabels = some tb ∧ o.typeConstraints = some cb ∧ (∀ v, v < ob.cl.n → tb.get v = some (lab v) ∧ lab v < o.numTypes) ∧
                ∀ t, t < o.numTypes → cb.get t = some (c t) := by
              intro h2
              rcases hv.types with ⟨h, -⟩ | ⟨-, -, hcn, -, hln⟩
              · omega
              · obtain ⟨tb, htb⟩ := Option.ne_none_iff_exists'.1 hln
                obtain ⟨cb, hcb⟩ := Option.ne_none_iff_exists'.1 hcn
                exact ⟨tb, cb, htb, hcb, hc.arrays.labels tb h2 htb, hc.arrays.constraints cb h2 hcb⟩
            refine (checkCounts_spec hc.config hlb hlive (hr1.1 rfl) hini.2.2.2.1 hty hc.room).mono ?_
            rintro ⟨e, ok⟩ w2 ⟨l2, ⟨h1, h2, h3⟩ | ⟨h1, h2, h3⟩⟩
            · rw [wpM_pure]
              refine ⟨l2, Or.inl ⟨h1, h2, trivial, by omega, hv, lb, ok, rfl, rfl, ?_⟩⟩
              dsimp only at h3
              rw [h3]
              exact ⟨fun h => ⟨hr1.1 rfl, hr2.1 rfl, h.1, h.2⟩, fun h => ⟨h.size, h.types⟩⟩
            · cases h1
              rw [wpM_pure]
              exact ⟨l2, Or.inr ⟨Or.inr (Or.inr ⟨rfl, h2⟩), rfl, h3⟩⟩
      · rw [if_pos he, wpM_pure]
        exact ⟨l1, Or.inr ⟨Or.inr (Or.inl ⟨hnv, hrc⟩), rfl, herr⟩⟩

end Scc
