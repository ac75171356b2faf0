/-
The estimate of the average seed distance.
-/
import Verif.Proofs.NngTypes
import Verif.Spec.Radius

set_option linter.unusedSimpArgs false
set_option linter.unusedVariables false

namespace Scc

theorem range'_eq_filter_dvd (n s : Nat) (hs : 0 < s) : List.range' 0 ((n + s - 1) / s) s = (List.range n).filter fun i => s ∣ i := by
  have hmem : ∀ x, x ∈ List.range' 0 ((n + s - 1) / s) s ↔ x ∈ (List.range n).filter fun i => s ∣ i := by
    intro x
    rw [List.mem_range', List.mem_filter, List.mem_range, decide_eq_true_iff]
    constructor
    · rintro ⟨i, hi, rfl⟩
      refine ⟨?_, by rw [Nat.zero_add]; exact Nat.dvd_mul_right s i⟩
      have h1 : i + 1 ≤ (n + s - 1) / s := hi
      rw [Nat.le_div_iff_mul_le hs, Nat.add_mul, Nat.one_mul] at h1
      rw [Nat.zero_add, Nat.mul_comm]
      omega
    · rintro ⟨h1, k, rfl⟩
      refine ⟨k, ?_, by rw [Nat.zero_add]⟩
      show k + 1 ≤ _
      rw [Nat.le_div_iff_mul_le hs, Nat.add_mul, Nat.one_mul, Nat.mul_comm k s]
      omega
  have h1 : (List.range' 0 ((n + s - 1) / s) s).Pairwise (· < ·) := List.pairwise_lt_range' (step := s) (pos := hs)
  have h2 : ((List.range n).filter fun i => s ∣ i).Pairwise (· < ·) := List.pairwise_lt_range.sublist List.filter_sublist
  have hp : (List.range' 0 ((n + s - 1) / s) s).Perm ((List.range n).filter fun i => s ∣ i) :=
    (List.perm_ext_iff_of_nodup (h1.imp fun h => Nat.ne_of_lt h) (h2.imp fun h => Nat.ne_of_lt h)).2 hmem
  exact hp.eq_of_pairwise (fun a b _ _ h h' => by omega) h1 h2

theorem filterMap_range_getElem? (l : List Nat) : (List.range l.length).filterMap (fun i => l[i]?) = l := by
  induction l with
  | nil => rfl
  | cons a l ih =>
    rw [List.length_cons, List.range_succ_eq_map, List.filterMap_cons]
    simp only [List.getElem?_cons_zero, List.filterMap_map]
    congr 1

theorem sampleIndices_eq (count : Nat) : ∃ s, 0 < s ∧ sampleIndices count = (List.range count).filter (fun i => s ∣ i) ∧
    s = if 1000 < count then count / 1000 else 1 := by
  unfold sampleIndices
  by_cases h : 1000 < count
  · simp only [if_pos h]
    have : 0 < count / 1000 := Nat.div_pos (by omega) (by omega)
    exact ⟨_, this, range'_eq_filter_dvd _ _ this, rfl⟩
  · simp only [if_neg h]
    exact ⟨1, by omega, range'_eq_filter_dvd _ _ (by omega), rfl⟩

theorem sampledSeeds_eq (seeds : List Nat) : sampledSeeds seeds = (sampleIndices seeds.length).filterMap fun i => seeds[i]? := by
  obtain ⟨s, h1, h2, h3⟩ := sampleIndices_eq seeds.length
  rw [h2, h3]
  unfold sampledSeeds
  by_cases h : 1000 < seeds.length
  · rw [if_neg (by omega), if_pos h]
  · rw [if_pos (by omega), if_neg h]
    have : (List.range seeds.length).filter (fun i => decide (1 ∣ i)) = List.range seeds.length := List.filter_eq_self.2 fun i _ => by simp
    rw [this, filterMap_range_getElem?]

variable {F : Type} [FloatOps F]

/-- What the digraph must satisfy at the seeds for the estimate. -/
structure SeedRows (n S : Nat) (rows : Nat → List Nat) (seeds : List Nat) : Prop where
  range : ∀ s ∈ seeds, s < n
  pos : ∀ s ∈ seeds, rows s ≠ []
  le : ∀ s ∈ seeds, (rows s).length ≤ S
  self : ∀ s ∈ seeds, s ∉ rows s

theorem sumDists_spec {n : Nat} {head tail : Buf Nat} {rows : Nat → List Nat} (hc : Csr n head tail rows) {s : Nat} (hs : s < n) (hself : s ∉ rows s) {dist : Nat → Nat → F}
    {dists : Buf F} (hd : ∀ j c, (rows s)[j]? = some c → dists.get j = some (dist s c)) :
    Wp (sumDists s (off rows s) (rows s).length head dists) fun p => p = ((rows s).foldl (fun acc x => FloatOps.add acc (dist s x)) FloatOps.zero, (rows s).length) := by
  unfold sumDists
  refine wp_forLt (fun i p => p = (((rows s).take i).foldl (fun acc x => FloatOps.add acc (dist s x)) FloatOps.zero, i)) (Nat.zero_le _) (by simp) ?_ ?_
  · rintro i p - hi rfl
    have hx : (rows s)[i]? = some (rows s)[i] := List.getElem?_eq_getElem hi
    dsimp only
    rw [wp_bind, wp_eq (hc.head_get s hs i _ hx), if_pos (show (rows s)[i] ≠ s from fun h => hself (by have h2 := List.getElem_mem hi; rwa [h] at h2)), wp_bind, wp_eq (hd i _ hx), wp_pure]
    rw [List.take_add_one, hx, Option.toList_some, List.foldl_append]
    rfl
  · rintro p rfl
    simp

theorem estimateStep_spec {cfg : Cfg} {spi : Spi F} {n S : Nat} {A : Criterion F} {dist : Nat → Nat → F} {mayRefuse : Prop} (hs : SpiOk spi n A dist mayRefuse)
    {sr : SeedResult} {nng : Digraph} {rows : Nat → List Nat} {seeds : List Nat} (hsr : sr.Holds seeds) (hr : nng.Repr cfg rows) (hn : nng.n = n)
    (hrow : SeedRows n S rows seeds) {scratch : Nat} {w : World} {L : Multiset Nat} (hlive : w.live = {scratch} + L) (hsl : ∀ i ∈ ptrIds sr.seeds, i ∈ L) (hnl : ∀ i ∈ nng.ids, i ∈ L)
    {st : Nat × F × Buf F} (hst : S ≤ st.2.2.len) {i s : Nat} (hi : seeds[i]? = some s) :
    WpM (estimateStep spi sr nng scratch st i) w fun c w' => w'.fails = w.fails ∧ match c with
      | .next st' => w'.live = w.live ∧ w'.err = w.err ∧ st'.1 = st.1 + 1 ∧ st'.2.1 = FloatOps.add st.2.1 (meanDist dist rows s) ∧ S ≤ st'.2.2.len
      | .stop e => w'.live = L ∧ w'.err.code = e ∧ SysCause w False mayRefuse e := by
  have hsm : s ∈ seeds := List.mem_of_getElem? hi
  have hsn := hrow.range s hsm
  have hcsr : Csr n (ptrBuf nng.head) (ptrBuf nng.tail) rows := hn ▸ hr.csr
  have hLl : ∀ j, j ∈ L → j ∈ w.live := fun j hj => by rw [hlive]; exact Multiset.mem_add.2 (Or.inr hj)
  obtain ⟨sb, hsb1, -, hsb2⟩ := hsr.block
  unfold estimateStep
  rw [wpM_bind, wpM_useK]
  refine ⟨?_, ?_⟩
  · intro j hj
    rcases List.mem_append.1 hj with hj | hj
    · exact hLl j (hsl j hj)
    · exact hLl j (hnl j hj)
  · have harcs : seedArcs (ptrBuf sr.seeds) (ptrBuf nng.tail) i = some (s, off rows s, (rows s).length) := by
      unfold seedArcs
      have h1 : (ptrBuf sr.seeds).get i = some s := by rw [hsb1]; exact hsb2 i s hi
      rw [h1]
      simp only [Option.bind_eq_bind, Option.bind_some]
      rw [hcsr.tail_get (s + 1) (by omega), hcsr.tail_get s (by omega), show off rows (s + 1) = off rows s + (rows s).length from rfl]
      simp
    rw [wp_eq harcs]
    dsimp only
    rw [wpM_bind]
    unfold touch
    rw [wpM_useK]
    refine ⟨by intro j hj; simp at hj; subst hj; rw [hlive]; simp, ?_⟩
    rw [wp_some, wpM_bind]
    have hq : ArrHolds (some (⟨[], Buf.ofList [s]⟩ : Arr)) [s] := by
      intro i x hx
      obtain ⟨h1, -⟩ := List.getElem?_eq_some_iff.1 hx
      simp at h1
      subst h1
      simpa using hx
    have hcl : ArrHolds (some (⟨ptrIds nng.head, (ptrBuf nng.head).drop (off rows s)⟩ : Arr)) (rows s) := by
      intro j x hx
      show ((ptrBuf nng.head).drop (off rows s)).get j = some x
      rw [show ((ptrBuf nng.head).drop (off rows s)).get j = (ptrBuf nng.head).get (off rows s + j) from get_drop]
      exact hcsr.head_get s hsn j x hx
    refine (hs.distRows 1 _ [s] (rows s).length _ (rows s) st.2.2 w hq rfl hcl rfl (by simpa using hsn) (hcsr.range s hsn) (by omega)
      (List.length_pos_iff.2 (hrow.pos s hsm)) (by simp [arrIds]) ?_ (by have := hrow.le s hsm; omega)).mono ?_
    · intro j hj
      exact hLl j (hnl j (by simp [Digraph.ids]; exact Or.inl (by simpa [arrIds] using hj)))
    · rintro (_ | dists) w1 ⟨a1, a2, a3, a4⟩
      · dsimp only
        rw [wpM_bind]
        refine wpM_freeId L (by rw [a3, hlive]) fun w2 k1 k2 k3 => ?_
        rw [wpM_bind]
        refine wpM_mkErr fun w3 l1 l2 l3 => ?_
        rw [wpM_pure]
        exact ⟨by rw [l1, k1, a1], by rw [l2, k2], by rw [l3], Or.inr (Or.inr ⟨rfl, a4⟩)⟩
      · obtain ⟨b1, b2⟩ := a4
        dsimp only
        rw [wpM_bind, wpM_useK]
        refine ⟨?_, ?_⟩
        · intro j hj
          rw [a3]
          rcases List.mem_cons.1 hj with rfl | hj
          · rw [hlive]; simp
          · exact hLl j (hnl j hj)
        · refine (sumDists_spec (dist := dist) hcsr hsn (hrow.self s hsm) (fun j c hc => ?_)).mono ?_
          · have := b2 0 j s c rfl hc
            simpa using this
          · rintro p rfl
            dsimp only
            rw [wpM_pure]
            exact ⟨a1, a3, a2, rfl, rfl, by rw [b1]; exact hst⟩

theorem estimateAvg_spec {cfg : Cfg} {spi : Spi F} {n S : Nat} {A : Criterion F} {dist : Nat → Nat → F} {mayRefuse : Prop} (hs : SpiOk spi n A dist mayRefuse)
    {sr : SeedResult} {nng : Digraph} {rows : Nat → List Nat} {seeds : List Nat} (hsr : sr.Holds seeds) (hr : nng.Repr cfg rows) (hn : nng.n = n)
    (hrow : SeedRows n S rows seeds) {w : World} (hsl : ∀ i ∈ ptrIds sr.seeds, i ∈ w.live) (hnl : ∀ i ∈ nng.ids, i ∈ w.live) :
    WpM (estimateAvg spi sr nng S) w fun r w' => match r with
      | .error e => FailPost w (SysCause w False mayRefuse) e w'
      | .ok v => w'.fails = w.fails ∧ w'.live = w.live ∧ w'.err = w.err ∧ v = seedEstimate dist rows seeds := by
  unfold estimateAvg
  rw [wpM_bind]
  refine wpM_alloc (fun w1 hf k1 k2 k3 => ?_) (fun b w1 k1 k2 k3 => ?_)
  · dsimp only
    exact wpM_fail fun w2 l1 l2 l3 => ⟨by rw [l1, k1], by rw [l2, k2], by rw [l3], Or.inr (Or.inl ⟨rfl, hf⟩)⟩
  · dsimp only
    rw [wpM_bind, hsr.count]
    have hin : ∀ i ∈ sampleIndices seeds.length, i < seeds.length := by
      obtain ⟨s, -, h, -⟩ := sampleIndices_eq seeds.length
      intro i hi
      rw [h] at hi
      exact List.mem_range.1 (List.mem_filter.1 hi).1
    refine (wpM_foldBM (fun pre st w' => w'.fails = w.fails ∧ w'.live = {b} + w.live ∧ w'.err = w.err ∧ st.1 = (pre.filterMap fun i => seeds[i]?).length ∧
        st.2.1 = (pre.filterMap fun i => seeds[i]?).foldl (fun acc s => FloatOps.add acc (meanDist dist rows s)) FloatOps.zero ∧ S ≤ st.2.2.len)
      (fun e w' => FailPost w (SysCause w False mayRefuse) e w') _ _ _ ⟨k1, k2, k3, rfl, rfl, by simp⟩ ?_).mono ?_
    · rintro pre i post st w2 hsplit ⟨a1, a2, a3, a4, a5, a6⟩
      have hi := hin i (by rw [hsplit]; simp)
      have hx : seeds[i]? = some seeds[i] := List.getElem?_eq_getElem hi
      refine (estimateStep_spec hs hsr hr hn hrow a2 hsl hnl a6 hx).mono ?_
      rintro (st' | e) w3 ⟨b1, b2⟩
      · obtain ⟨c1, c2, c3, c4, c5⟩ := b2
        refine ⟨b1.trans a1, c1.trans a2, c2.trans a3, ?_, ?_, c5⟩
        · rw [c3, a4, List.filterMap_append]; simp [hx]
        · rw [c4, a5, List.filterMap_append]; simp [hx]
      · obtain ⟨c1, c2, c3⟩ := b2
        exact ⟨b1.trans a1, c1, c2, c3.imp a1 id id⟩
    · rintro (⟨sampled, sum, bf⟩ | e) w2 hh
      · obtain ⟨a1, a2, a3, a4, a5, -⟩ := hh
        dsimp only at a4 a5 ⊢
        rw [wpM_bind]
        refine wpM_freeId w.live a2 fun w3 l1 l2 l3 => ?_
        rw [wpM_pure]
        refine ⟨l1.trans a1, l2, l3.trans a3, ?_⟩
        rw [a4, a5, ← sampledSeeds_eq]; rfl
      · dsimp only
        rw [wpM_pure]
        exact hh

end Scc
