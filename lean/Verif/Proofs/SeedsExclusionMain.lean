/-
The main loop of the exclusion methods.
-/
import Verif.Proofs.SeedsExclusion

set_option linter.unusedSimpArgs false
set_option linter.unusedVariables false

namespace Scc

section
variable {stb : Bool} {n mx p : Nat} {head tail : Buf Nat} {rows E G : Nat → List Nat} {S : List Nat} {ne : Buf Bool} {q : Queue} {ord pos f : Nat → Nat}

/-- Vertices whose count is kept up to date. -/
def CanN (n : Nat) (rows : Nat → List Nat) (S : List Nat) (x : Nat) : Prop := x < n ∧ CanAdd rows S x

instance : DecidablePred (CanN n rows S) := fun x => by unfold CanN; infer_instance

theorem decreaseRecorded_spec (hc : Csr n head tail G) (hne : NEOK n rows S ne) (hq : QOK stb n mx (p + 1) q ord pos f) {start stop : Nat} {l : List Nat}
    (hstop : stop = start + l.length) (hl : ∀ j a, l[j]? = some a → head.get (start + j) = some a) (hln : ∀ a ∈ l, a < n)
    (hpos : ∀ x, CanN n rows S x → p < pos x) (hcnt : ∀ x, CanN n rows S x → (l.flatMap G).count x ≤ f x) :
    Wp (decreaseRecorded stb head tail ne p start stop q) (fun q' => ∃ ord' pos',
      QOK stb n mx (p + 1) q' ord' pos' (fun x => if CanN n rows S x then f x - (l.flatMap G).count x else f x) ∧ ∀ i, i ≤ p → ord' i = ord i) := by
  unfold decreaseRecorded forNe
  subst hstop
  rw [if_pos (by omega), show start + l.length - start = l.length by omega,
    foldlM_range'_get head (fun u q => rowLoop head tail u q fun x q => do let e ← ne.get x; if e then decreaseV stb p x q else pure q) l start q hl]
  refine wp_foldlM (fun pre q' => ∃ ord' pos',
      QOK stb n mx (p + 1) q' ord' pos' (fun x => if CanN n rows S x then f x - (pre.flatMap G).count x else f x) ∧ ∀ i, i ≤ p → ord' i = ord i)
    l q ⟨ord, pos, by simpa using hq, fun i _ => rfl⟩ ?_
  rintro pre u post q' hsplit ⟨ord', pos', hq', hfr⟩
  have hu : u < n := hln u (by simp [hsplit])
  rw [rowLoop_eq hc hu]
  refine (decreaseList_spec (CanN n rows S) hq' (G u) ?_ ?_ ?_).mono ?_
  · intro x hx he
    exact ⟨he.1, (frozen_pos hq.ok hq'.ok hfr he.1).2 (hpos x he)⟩
  · intro x he
    have := hcnt x he
    rw [hsplit] at this
    simp only [List.flatMap_append, List.flatMap_cons, List.count_append] at this
    rw [if_pos he]; omega
  · intro x hx q1 ord1 pos1 f1 hq1 hfr1
    have hxn := hc.range u hu x hx
    rw [hne.get x hxn]
    simp only [Option.bind_eq_bind, Option.bind_some, decide_eq_true_eq]
    by_cases h : CanAdd rows S x
    · rw [if_pos h, if_pos ⟨hxn, h⟩]
    · rw [if_neg h, if_neg (fun hx => h hx.2)]; rfl
  · rintro q2 ⟨o2, p2, h1, h2⟩
    refine ⟨o2, p2, ?_, fun i hi => by rw [h2 i hi, hfr i hi]⟩
    have : (fun x => if CanN n rows S x then f x - ((pre ++ [u]).flatMap G).count x else f x) =
        (fun x => if CanN n rows S x then (if CanN n rows S x then f x - (pre.flatMap G).count x else f x) - (G u).count x
          else if CanN n rows S x then f x - (pre.flatMap G).count x else f x) := by
      funext x
      by_cases hx : CanN n rows S x
      · simp only [hx, if_true, List.flatMap_append, List.flatMap_cons, List.flatMap_nil, List.append_nil, List.count_append]; omega
      · simp only [hx, if_false]
    rw [this]; exact h1

/-- Counts are up to date: conflicts with vertices that can still be seeds. -/
def ConfCounts (n : Nat) (rows : Nat → List Nat) (S : List Nat) (f : Nat → Nat) : Prop :=
  ∀ x, CanN n rows S x → f x = sumIf n (CanN n rows S) (fun u => (conflictRows rows n u).count x)

/-- Vertices in `rows n` listed as conflicting with seed `v` that could be seeds before. -/
def newlyExcluded (n : Nat) (rows : Nat → List Nat) (S : List Nat) (v : Nat) : List Nat :=
  (conflictRows rows n v).filter (fun a => CanAdd rows S a ∧ a ≠ v)

theorem confCounts_seed (hr : ∀ v, v < n → ∀ a ∈ rows v, a < n) {v : Nat} (hv : v < n) (hadd : CanAdd rows S v) (h : ConfCounts n rows S f) :
    ∀ x, CanN n rows (S ++ [v]) x → f x = ((newlyExcluded n rows S v).flatMap (conflictRows rows n)).count x +
      sumIf n (CanN n rows (S ++ [v])) (fun u => (conflictRows rows n u).count x) := by
  intro x hx
  have hx1 := (canAdd_snoc_conflict (S := S) hr hv hx.1 hadd.1).1 hx.2
  have hmem : ∀ a ∈ newlyExcluded n rows S v, a < n := by
    intro a ha
    have := (List.mem_filter.1 ha).1
    exact ((mem_conflictRows hr hv).1 this).2.1
  rw [List.count_flatMap, h x ⟨hx.1, hx1.1⟩, show List.count x ∘ conflictRows rows n = fun u => (conflictRows rows n u).count x from rfl,
    ← sumIf_list (show (newlyExcluded n rows S v).Nodup from nodup_conflictRows.filter _) hmem]
  refine sumIf_split fun u hu hg => ?_
  have huv : u ≠ v := by
    rintro rfl
    exact hg (List.count_eq_zero.2 hx1.2.2)
  have h1 : u ∈ newlyExcluded n rows S v ↔ u ∈ conflictRows rows n v ∧ CanAdd rows S u := by
    simp [newlyExcluded, huv]
  have h2 : CanN n rows (S ++ [v]) u ↔ CanAdd rows S u ∧ u ∉ conflictRows rows n v := by
    unfold CanN; rw [canAdd_snoc_conflict hr hv hu hadd.1]; simp [hu, huv]
  have h3 : CanN n rows S u ↔ CanAdd rows S u := by simp [CanN, hu]
  show (CanN n rows S u ↔ u ∈ newlyExcluded n rows S v ∨ CanN n rows (S ++ [v]) u) ∧ ¬ (u ∈ newlyExcluded n rows S v ∧ CanN n rows (S ++ [v]) u)
  rw [h1, h2, h3]
  tauto

theorem excludeUpdating_spec (hr : ∀ v, v < n → ∀ a ∈ rows v, a < n) (hc : Csr n head tail G) {v : Nat} (hv : v < n) (hadd : CanAdd rows S v)
    (hG : ∀ u, CanN n rows S u → G u = conflictRows rows n u)
    (hne : ne.len = n) (hg : ∀ x, x < n → ne.get x = some (decide (CanAdd rows S x ∧ x ≠ v)))
    (hq : QOK stb n mx (p + 1) q ord pos f) (hcs : ConfCounts n rows S f) (hpos : ∀ x, CanN n rows (S ++ [v]) x → p < pos x) :
    Wp (excludeUpdating stb head tail ne p v q) (fun r => NEOK n rows (S ++ [v]) r.1 ∧
      (∃ G', Csr n r.2.1 tail G' ∧ ∀ u, CanN n rows (S ++ [v]) u → G' u = conflictRows rows n u) ∧
      ∃ ord' pos' f', QOK stb n mx (p + 1) r.2.2 ord' pos' f' ∧ ConfCounts n rows (S ++ [v]) f' ∧ ∀ i, i ≤ p → ord' i = ord i) := by
  have hGv := hG v ⟨hv, hadd⟩
  unfold excludeUpdating
  rw [wp_bind]
  refine (excludeRecord_spec hc hv (by rw [hGv]; exact nodup_conflictRows) (fun x => CanAdd rows S x ∧ x ≠ v) hne hg).mono ?_
  rintro ⟨ne', head', start, stop⟩ ⟨h1, h2, h3, h4, h5, row, h6⟩
  dsimp only at h1 h2 h3 h4 h5 h6 ⊢
  subst h3
  have hne' : NEOK n rows (S ++ [v]) ne' := by
    refine ⟨h1, fun x hx => ?_⟩
    rw [h2 x hx]
    simp only [Option.some.injEq, decide_eq_decide]
    rw [canAdd_snoc_conflict hr hv hx hadd.1, hGv, and_assoc]
  have hrec : (G v).filter (fun a => decide (CanAdd rows S a ∧ a ≠ v)) = newlyExcluded n rows S v := by rw [hGv]; rfl
  rw [hrec] at h4 h5
  have hmem : ∀ a ∈ newlyExcluded n rows S v, a < n ∧ CanAdd rows S a ∧ a ≠ v := by
    intro a ha
    have := List.mem_filter.1 ha
    exact ⟨((mem_conflictRows hr hv).1 this.1).2.1, by simpa using this.2⟩
  have hflat : (newlyExcluded n rows S v).flatMap (fun u => if u = v then row else G u) = (newlyExcluded n rows S v).flatMap (conflictRows rows n) := by
    simp only [List.flatMap_def]
    congr 1
    refine List.map_congr_left fun a ha => ?_
    obtain ⟨a1, a2, a3⟩ := hmem a ha
    rw [if_neg a3, hG a ⟨a1, a2⟩]
  have hcnt := confCounts_seed hr hv hadd hcs
  rw [wp_bind]
  refine (decreaseRecorded_spec h6 hne' hq h4 h5 (fun a ha => (hmem a ha).1) hpos ?_).mono ?_
  · intro x hx
    rw [hflat, hcnt x hx]; omega
  · rintro q' ⟨ord', pos', hq', hfr⟩
    rw [wp_pure]
    refine ⟨hne', ⟨_, h6, fun u hu => ?_⟩, ord', pos', _, hq', fun x hx => ?_, hfr⟩
    · have := (canAdd_snoc_conflict (S := S) hr hv hu.1 hadd.1).1 hu.2
      rw [if_neg this.2.1, hG u ⟨hu.1, this.1⟩]
    · beta_reduce
      rw [if_pos hx, hflat, hcnt x hx]; omega

/-- The vertex at position `i` has the smallest number of conflicts, at the time it is considered. -/
def ConfAt (stb : Bool) (n : Nat) (rows : Nat → List Nat) (ord pos : Nat → Nat) (i : Nat) : Prop :=
  let S := greedySeeds rows ((List.range i).map ord)
  CanN n rows S (ord i) → ∀ x, i < pos x → CanN n rows S x →
    ComesFirst stb (fun y => sumIf n (CanN n rows S) (fun u => (conflictRows rows n u).count y)) (ord i) x

theorem ConfAt.congr {i : Nat} {ord' pos' : Nat → Nat} (h : OrdOK n ord pos) (h' : OrdOK n ord' pos')
    (hfr : ∀ j, j ≤ i → ord' j = ord j) (hd : ConfAt stb n rows ord pos i) : ConfAt stb n rows ord' pos' i := by
  unfold ConfAt at hd ⊢
  rw [map_frozen (fun j hj => hfr j (by omega)), hfr i le_rfl]
  intro S h1 x h3 h4
  exact hd h1 x ((frozen_pos h h' hfr h4.1).1 h3) h4

/-- Vertices considered earlier cannot be added any more. -/
theorem pos_of_canAdd (hok : OrdOK n ord pos) {x : Nat} (hx : CanN n rows (greedySeeds rows ((List.range p).map ord)) x) : p ≤ pos x := by
  by_contra hlt
  have hmem : x ∈ (List.range p).map ord := List.mem_map.2 ⟨pos x, by simp; omega, hok.ord_pos x hx.1⟩
  obtain ⟨s, hs, y, hy1, hy2⟩ := greedySeeds_maximal x hmem hx.2.1
  exact hx.2.2 s hs y hy1 hy2

theorem conflictsFrom_eq (hr : ∀ v, v < n → ∀ a ∈ rows v, a < n) {l : List Nat} (hnd : l.Nodup) (hl : ∀ u ∈ l, u < n) {y : Nat} (hy : y < n) :
    conflictsFrom rows l y = sumIf n (· ∈ l) (fun u => (conflictRows rows n u).count y) := by
  rw [sumIf_list hnd hl]
  unfold conflictsFrom
  induction l with
  | nil => rfl
  | cons u l ih =>
    rw [List.nodup_cons] at hnd
    rw [List.map_cons, List.sum_cons, List.countP_cons, ih hnd.2 (fun a ha => hl a (by simp [ha])), Nat.add_comm]
    congr 1
    have hu := hl u (by simp)
    by_cases h : rows u ≠ [] ∧ Conflict rows u y
    · rw [List.count_eq_one_of_mem nodup_conflictRows ((mem_conflictRows hr hu).2 ⟨h.1, hy, h.2⟩)]; simp [h]
    · rw [List.count_eq_zero.2 (fun hx => h ⟨((mem_conflictRows hr hu).1 hx).1, ((mem_conflictRows hr hu).1 hx).2.2⟩), if_neg (by simpa using h)]

/-- Both variants of the dynamic order. -/
def DynConflicts (stb : Bool) (rows : Nat → List Nat) (order : List Nat) : Prop :=
  ∀ pre v post, order = pre ++ v :: post →
    let can := fun x => CanAdd rows (greedySeeds rows pre) x
    let left := (v :: post).filter fun x => decide (can x)
    can v → ∀ x ∈ post, can x → ComesFirst stb (conflictsFrom rows left) v x

theorem dynamic_of_confAt (hr : ∀ v, v < n → ∀ a ∈ rows v, a < n) (hok : OrdOK n ord pos) (hd : ∀ i, i < n → ConfAt stb n rows ord pos i) :
    DynConflicts stb rows ((List.range n).map ord) := by
  intro pre v post hs
  obtain ⟨h1, h2, h3, h4⟩ := split_order hok hs
  intro can left hv x hx hfx
  have hnd : (pre ++ v :: post).Nodup := by rw [← hs]; exact hok.perm.nodup_iff.2 List.nodup_range
  have hvp : (v :: post).Nodup := (List.nodup_append.1 hnd).2.1
  have hvn : v < n := by rw [h2]; exact hok.ord_lt _ h3
  have hlt : ∀ u ∈ v :: post, u < n := by
    intro u hu
    rcases List.mem_cons.1 hu with rfl | hu
    · exact hvn
    · exact ((h4 u).1 hu).1
  have hmem : ∀ u, u < n → (u ∈ left ↔ CanN n rows (greedySeeds rows pre) u) := by
    intro u hu
    simp only [left, List.mem_filter, decide_eq_true_eq, List.mem_cons, h4, can]
    constructor
    · rintro ⟨-, h⟩; exact ⟨hu, h⟩
    · intro h
      refine ⟨?_, h.2⟩
      have h5 : pre.length ≤ pos u := by
        rw [h1] at h
        exact pos_of_canAdd hok h
      rcases Nat.lt_or_eq_of_le h5 with h6 | h6
      · exact Or.inr ⟨hu, h6⟩
      · left; rw [h2, h6, hok.ord_pos u hu]
  have hsum : ∀ y, y < n → conflictsFrom rows left y = sumIf n (CanN n rows (greedySeeds rows pre)) (fun u => (conflictRows rows n u).count y) := by
    intro y hy
    rw [conflictsFrom_eq hr (hvp.filter _) (fun u hu => hlt u (List.mem_of_mem_filter hu)) hy]
    exact sumIf_congr fun u hu _ => hmem u hu
  have := hd pre.length h3
  unfold ConfAt at this
  rw [← h1, ← h2] at this
  have hxn := ((h4 x).1 hx).1
  exact (this ⟨hvn, hv⟩ x ((h4 x).1 hx).2 ⟨hxn, hfx⟩).congr (hsum v hvn) (hsum x hxn)

end

/-- Order in which the exclusion methods consider the vertices. -/
def ExclusionOrder (stb updating : Bool) (rows : Nat → List Nat) (n : Nat) (o : List Nat) : Prop :=
  if updating then DynConflicts stb rows o else SortedByConflicts rows n o

/-- Invariant of the main loop of the exclusion methods, after `p` iterations. -/
def ExclInv (cfg : Cfg) (w : World) (L : Multiset Nat) (n : Nat) (tail : Buf Nat) (rows : Nat → List Nat) (updating : Bool) (ord0 : Nat → Nat) (p : Nat)
    (st : Buf Bool × Buf Nat × SeedResult × Queue) (w' : World) : Prop :=
  ∃ ord pos, OrdOK n ord pos ∧ (∀ i, i < n → st.2.2.2.sv.get i = some (ord i)) ∧ SeedInv cfg w L rows ((List.range p).map ord) st.2.2.1 w' ∧
    NEOK n rows (greedySeeds rows ((List.range p).map ord)) st.1 ∧
    (∃ G, Csr n st.2.1 tail G ∧ ∀ u, CanN n rows (greedySeeds rows ((List.range p).map ord)) u → G u = conflictRows rows n u) ∧
    (updating = true → ∃ mx f, QOK cfg.stableSeeds n mx p st.2.2.2 ord pos f ∧ ConfCounts n rows (greedySeeds rows ((List.range p).map ord)) f ∧
      ∀ i, i < p → ConfAt cfg.stableSeeds n rows ord pos i) ∧ (updating = false → ord = ord0)

theorem exclusionStep_spec {cfg : Cfg} {n : Nat} {tail : Buf Nat} {rows : Nat → List Nat} {w w1 : World} {L : Multiset Nat} {ids : List Nat} {updating : Bool} {ord0 : Nat → Nat} {p : Nat}
    {st : Buf Bool × Buf Nat × SeedResult × Queue}
    (hr : ∀ v, v < n → ∀ a ∈ rows v, a < n) (hids : ∀ i ∈ ids, i ∈ L) (hp : p < n)
    (hi : ExclInv cfg w L n tail rows updating ord0 p st w1) :
    WpM (exclusionStep cfg ids tail updating st p) w1 (fun c w' => match c with
      | .next st' => ExclInv cfg w L n tail rows updating ord0 (p + 1) st' w'
      | .stop r => SeedStop w L (cfg.clabelMax < n) r w') := by
  obtain ⟨ne, head, sr, q⟩ := st
  obtain ⟨ord, pos, hok, hsv, hseed, hne, ⟨G, hc, hG⟩, hupd, hnon⟩ := hi
  dsimp only at hsv hseed hne hupd hc
  have hv := hok.ord_lt p hp
  unfold exclusionStep
  dsimp only
  rw [wpM_bind, wpM_useK]
  refine ⟨hseed.mem_live hids, ?_⟩
  rw [wp_eq (hsv p hp), wpM_bind, wpM_useK]
  refine ⟨hseed.mem_live hids, ?_⟩
  rw [wp_eq (hne.get _ hv)]
  have hsn := range_snoc_map ord p
  have hdyn : ∀ mx f, QOK cfg.stableSeeds n mx p q ord pos f → ConfCounts n rows (greedySeeds rows ((List.range p).map ord)) f → ConfAt cfg.stableSeeds n rows ord pos p := by
    intro mx f h1 h2 hvv x hpx hfx
    have hpo := h1.ok.pos_ord p hp
    have hlt := h1.ok.pos_lt x hfx.1
    have hs := h1.sorted (i := p) (j := pos x) le_rfl (by omega) hlt
    have hox := h1.ok.ord_pos x hfx.1
    rw [hox] at hs
    refine ComesFirst.congr (key := f) ?_ (h2 (ord p) hvv).symm (h2 x hfx).symm
    rcases Nat.lt_or_eq_of_le hs with h3 | h3
    · exact Or.inl h3
    · refine Or.inr ⟨h3, fun hst => ?_⟩
      have := h1.tie hst p (pos x) le_rfl hpx hlt (by rw [hox]; exact h3)
      rwa [hox] at this
  by_cases hadd : CanAdd rows (greedySeeds rows ((List.range p).map ord)) (ord p)
  · have hg : greedySeeds rows ((List.range (p + 1)).map ord) = greedySeeds rows ((List.range p).map ord) ++ [ord p] := by
      rw [hsn, greedySeeds_snoc, if_pos hadd]
    rw [if_pos (by simpa using hadd), wpM_bind]
    refine (hseed.add hadd (n := n) (by simpa using hp)).mono ?_
    rintro ⟨ec, sr'⟩ w2 (⟨rfl, b2⟩ | ⟨hec, hse⟩)
    · simp only [ne_eq, not_true, if_false]
      rw [wpM_bind, wpM_useK]
      refine ⟨b2.mem_live hids, ?_⟩
      rw [Buf.wp_set]
      refine ⟨by rw [hne.len]; exact hv, ?_⟩
      have hnl : (ne.upd (ord p) false).len = n := hne.len
      have hng : ∀ x, x < n → (ne.upd (ord p) false).get x = some (decide (CanAdd rows (greedySeeds rows ((List.range p).map ord)) x ∧ x ≠ ord p)) := by
        intro x hx
        by_cases hxv : x = ord p
        · rw [hxv, Buf.get_upd_self _ _ (by rw [hne.len]; exact hv)]; simp
        · rw [Buf.get_upd_ne _ _ hxv, hne.get x hx]; simp [hxv]
      cases updating with
      | false =>
        simp only [Bool.false_eq_true, if_false]
        rw [wpM_bind, wpM_useK]
        refine ⟨b2.mem_live hids, ?_⟩
        refine (excludeRow_spec hr hc hv hadd.1 (hG _ ⟨hv, hadd⟩) hnl hng).mono fun ne' hne' => ?_
        rw [wpM_pure]
        refine ⟨ord, pos, hok, hsv, by rw [hsn]; exact b2, by rw [hg]; exact hne', ⟨G, hc, fun u hu => hG u ?_⟩, by simp, fun _ => hnon rfl⟩
        rw [hg] at hu
        exact ⟨hu.1, ((canAdd_snoc).1 hu.2).1⟩
      | true =>
        simp only [if_true]
        obtain ⟨mx, f, h1, h2, h3⟩ := hupd rfl
        rw [wpM_bind, wpM_useK]
        refine ⟨b2.mem_live hids, ?_⟩
        refine (excludeUpdating_spec hr hc hv hadd hG hnl hng (h1.mono (Nat.le_succ p)) h2 ?_).mono ?_
        · intro x hx
          rw [← hg] at hx
          exact pos_of_canAdd hok hx
        · rintro ⟨ne', head', q'⟩ ⟨hne', ⟨G', hc', hG'⟩, ord', pos', f', hq', hcs', hfr⟩
          dsimp only at hne' hc' hq' ⊢
          rw [wpM_pure]
          have hmf : (List.range (p + 1)).map ord' = (List.range (p + 1)).map ord := map_frozen fun j hj => hfr j (by omega)
          refine ⟨ord', pos', hq'.ok, hq'.sv, by rw [hmf, hsn]; exact b2, by rw [hmf, hg]; exact hne', ⟨G', hc', by rw [hmf, hg]; exact hG'⟩,
            fun _ => ⟨mx, f', hq', by rw [hmf, hg]; exact hcs', fun i hi => ?_⟩, by simp⟩
          rcases Nat.lt_succ_iff_lt_or_eq.1 hi with hi | rfl
          · exact (h3 i hi).congr hok hq'.ok (fun j hj => hfr j (by omega))
          · exact (hdyn mx f h1 h2).congr hok hq'.ok hfr
    · dsimp only at hec ⊢
      rw [if_pos hec, wpM_pure]
      exact hse
  · have hg : greedySeeds rows ((List.range (p + 1)).map ord) = greedySeeds rows ((List.range p).map ord) := by
      rw [hsn, greedySeeds_snoc, if_neg hadd]
    rw [if_neg (by simpa using hadd), wpM_pure]
    refine ⟨ord, pos, hok, hsv, by rw [hsn]; exact hseed.skip hadd, by rw [hg]; exact hne, ⟨G, hc, by rw [hg]; exact hG⟩, fun hu => ?_, hnon⟩
    obtain ⟨mx, f, h1, h2, h3⟩ := hupd hu
    refine ⟨mx, f, h1.mono (Nat.le_succ p), by rw [hg]; exact h2, fun i hi => ?_⟩
    rcases Nat.lt_succ_iff_lt_or_eq.1 hi with hi | rfl
    · exact h3 i hi
    · exact hdyn mx f h1 h2

theorem exclusionMain_spec {cfg : Cfg} {nng ex : Digraph} {rows : Nat → List Nat} {w w0 : World} (updating : Bool) (cap : Nat) {ne : Blk Bool}
    (h : nng.Repr cfg rows) (hne : NEOK nng.n rows [] ne.buf) (hex : ex.Repr cfg (conflictRows rows nng.n)) (hexn : ex.n = nng.n)
    (hf : w0.fails = w.fails) (hl : w0.live = {ne.id} + (ex.own + w.live)) (he : w0.err = w.err ∨ w0.err = ErrInfo.none) :
    WpM (exclusionMain cfg nng updating cap ne ex) w0 (SeedsPost cfg rows nng.n (cfg.clabelMax < nng.n) w (ExclusionOrder cfg.stableSeeds updating rows nng.n)) := by
  unfold exclusionMain
  rw [wpM_bind]
  have hexl : ∀ i ∈ ex.ids, i ∈ w0.live := fun i hi => by
    rw [hl]; exact Multiset.mem_add.2 (Or.inr (Multiset.mem_add.2 (Or.inl (mem_ids_iff_own.1 hi))))
  refine (sortByInwards_spec updating hex hexl).mono ?_
  rintro (ec | sort) w1 hs
  · dsimp only
    rw [wpM_bind]
    refine wpM_freeId (ex.own + w.live) (by rw [hs.live, hl]) fun w2 k1 k2 k3 => ?_
    rw [wpM_bind]
    refine freeDigraph_spec w.live k2 fun w3 m1 m2 m3 => ?_
    rw [wpM_pure]
    exact ⟨by rw [m1, k1, hs.fails, hf], m2, by rw [m3, k3]; exact hs.err, hs.cause.imp (fun h => ⟨h.1, h.2.elim⟩) (fun h => ⟨h.1, by rw [← noFail_congr hf]; exact h.2⟩)⟩
  · obtain ⟨s1, s2, s3, ord0, hord0, hsv0, hq0⟩ := hs
    rw [hexn] at hord0 hsv0 hq0
    dsimp only
    rw [wpM_bind]
    refine wpM_alloc (fun w2 hn k1 k2 k3 => ?_) (fun i w2 k1 k2 k3 => ?_)
    · dsimp only
      rw [wpM_bind]
      refine wpM_freeId (sort.own + (ex.own + w.live)) (by rw [k2, s2, hl]; abel) fun w3 l1 l2 l3 => ?_
      rw [wpM_bind]
      refine freeDigraph_spec (sort.own + w.live) (by rw [l2]; abel) fun w4 m1 m2 m3 => ?_
      rw [wpM_bind]
      refine freeSort_spec w.live m2 fun w5 p1 p2 p3 => ?_
      exact wpM_fail fun w6 q1 q2 q3 => ⟨by rw [q1, p1, m1, l1, k1, s1, hf], by rw [q2, p2], by rw [q3], Or.inr ⟨rfl, by rwa [noFail_congr (s1.trans hf)] at hn⟩⟩
    · dsimp only
      rw [wpM_bind]
      have hids : ∀ x ∈ ne.id :: (ex.ids ++ ptrIds sort.cnt ++ ptrIds sort.sv ++ ptrIds sort.vidx ++ ptrIds sort.bidx), x ∈ (sort.own + ({ne.id} + (ex.own + w.live)) : Multiset Nat) := by
        intro x hx
        have hpo : ∀ p : Option (Blk Nat), x ∈ ptrIds p → x ∈ ptrOwn p := by
          intro p hp; cases p <;> simpa [ptrIds, ptrOwn] using hp
        simp only [List.mem_cons, List.mem_append] at hx
        simp only [SortResult.own, Multiset.mem_add, Multiset.mem_singleton]
        rcases hx with hx | (((hx | hx) | hx) | hx) | hx
        · exact Or.inr (Or.inl hx)
        · exact Or.inr (Or.inr (Or.inl (mem_ids_iff_own.1 hx)))
        · exact Or.inl (Or.inl (hpo _ hx))
        · exact Or.inl (Or.inr (Or.inl (hpo _ hx)))
        · exact Or.inl (Or.inr (Or.inr (Or.inl (hpo _ hx))))
        · exact Or.inl (Or.inr (Or.inr (Or.inr (hpo _ hx))))
      have hcsr : Csr nng.n (ptrBuf ex.head) (ptrBuf ex.tail) (conflictRows rows nng.n) := hexn ▸ hex.csr
      refine (wpM_foldBM (fun pre st w' => ExclInv cfg w (sort.own + ({ne.id} + (ex.own + w.live))) nng.n (ptrBuf ex.tail) rows updating ord0 pre.length st w')
        (SeedStop w (sort.own + ({ne.id} + (ex.own + w.live))) (cfg.clabelMax < nng.n)) (List.range nng.n) _ w2 ?_ ?_).mono ?_
      · refine ⟨ord0, _, hord0, hsv0, ⟨by rw [k1, s1, hf], by rw [k2, s2, hl]; rfl, ?_, ⟨rfl, by simp [greedySeeds], _, rfl, rfl, by simp [greedySeeds]⟩, by simp [greedySeeds]⟩,
          hne, ⟨_, hcsr, fun u _ => rfl⟩, fun hu => ?_, fun _ => rfl⟩
        · rw [k3, s3]; exact he
        obtain ⟨mx, hq⟩ := hq0 hu
        refine ⟨mx, _, hq _, fun x hx => ?_, fun i hi => absurd hi (by simp)⟩
        rw [indeg_eq_sumIf]
        refine sumIf_congr fun u hu hg => ?_
        simp only [true_iff]
        refine ⟨hu, canAdd_nil.2 ?_⟩
        have : x ∈ conflictRows rows nng.n u := by
          by_contra hx; exact hg (List.count_eq_zero.2 hx)
        exact ((mem_conflictRows h.csr.range hu).1 this).1
      · rintro pre v post st w3 hsplit hi
        have hv : v = pre.length ∧ pre.length < nng.n := by
          have hlen : nng.n = pre.length + (post.length + 1) := by
            have := congrArg List.length hsplit; simpa using this
          have := congrArg (fun l => l[pre.length]?) hsplit
          simp only [List.getElem?_append_right (le_refl _), Nat.sub_self, List.getElem?_cons_zero] at this
          rw [List.getElem?_range (by omega)] at this
          simp at this; omega
        obtain ⟨rfl, hlt⟩ := hv
        refine (exclusionStep_spec h.csr.range hids hlt hi).mono ?_
        rintro (s' | r) w' hh
        · simpa using hh
        · exact hh
      · rintro (⟨ne', head', sr, q⟩ | ⟨ec, sr⟩) w3 hc
        · obtain ⟨ord, pos, hok, hsv, hseed, -, -, hupd, hnon⟩ := hc
          dsimp only at hseed ⊢
          rw [wpM_bind]
          refine wpM_freeId (ex.own + (sort.own + (ptrOwn sr.seeds + w.live))) (by rw [hseed.live]; abel) fun w4 l1 l2 l3 => ?_
          rw [wpM_bind]
          refine freeDigraph_spec _ l2 fun w5 m1 m2 m3 => ?_
          rw [wpM_bind]
          refine freeSort_spec _ m2 fun w6 p1 p2 p3 => ?_
          rw [wpM_pure]
          simp only [List.length_range] at hseed hupd
          refine ⟨(List.range nng.n).map ord, ?_, hok.perm, by rw [p1, m1, l1, hseed.fails], p2, by rw [p3, m3, l3]; exact hseed.err, hseed.holds, hseed.cap⟩
          unfold ExclusionOrder
          cases updating with
          | true =>
            simp only [if_true]
            obtain ⟨mx, f, -, -, hd⟩ := hupd rfl
            exact dynamic_of_confAt h.csr.range hok hd
          | false =>
            simp only [Bool.false_eq_true, if_false]
            rw [hnon rfl]
            have hso := sorted_of_rank hord0
            have hkey : ∀ y, y < nng.n → indeg (conflictRows rows nng.n) nng.n y = conflictsFrom rows (List.range nng.n) y := by
              intro y hy
              rw [indeg_eq_sumIf, conflictsFrom_eq h.csr.range List.nodup_range (by simp) hy]
              exact sumIf_congr fun u hu _ => by simpa using hu
            unfold SortedByConflicts
            refine hso.imp_of_mem ?_
            intro a b ha hb hab
            obtain ⟨ia, hia, rfl⟩ := List.mem_map.1 ha
            obtain ⟨ib, hib, rfl⟩ := List.mem_map.1 hb
            rwa [hkey _ (hord0.ord_lt ia (by simpa using hia)), hkey _ (hord0.ord_lt ib (by simpa using hib))] at hab
        · obtain ⟨a1, a2, a3⟩ := hc
          dsimp only at a2 ⊢
          rw [wpM_bind]
          refine wpM_freeId (ex.own + (sort.own + (ptrOwn sr.seeds + w.live))) (by rw [a2]; abel) fun w4 l1 l2 l3 => ?_
          rw [wpM_bind]
          refine freeDigraph_spec _ l2 fun w5 m1 m2 m3 => ?_
          rw [wpM_bind]
          refine freeSort_spec _ m2 fun w6 p1 p2 p3 => ?_
          rw [wpM_bind]
          refine wpM_freePtr w.live p2 fun w7 q1 q2 q3 => ?_
          rw [wpM_pure]
          exact ⟨by rw [q1, p1, m1, l1, a1], q2, by rw [q3, p3, m3, l3]; exact a3.1, a3.2⟩

end Scc
