/-
Union and product of digraphs: the marker loops.
-/
import Verif.Proofs.DigraphLemmas

set_option linter.unusedSimpArgs false
set_option linter.unusedVariables false

namespace Scc

/-- Invariant while scanning for output row `v`: exactly the vertices in `seen` are marked, the output so far is `acc`. -/
structure Scan (write : Bool) (n v pm : Nat) (seen acc : List Nat) (st : UnionSt) : Prop where
  rm_len : st.rm.len = n
  marks : ∀ x, x < n → ∃ m, st.rm.get x = some m ∧ (m = v ↔ x ∈ seen) ∧ (m ≤ v ∨ m = pm)
  cnt : st.cnt = acc.length
  out : write = true → Pre st.head acc

theorem Scan.congr {write : Bool} {n v pm : Nat} {s t acc : List Nat} {st : UnionSt} (h : Scan write n v pm s acc st)
    (hst : ∀ x, x ∈ s ↔ x ∈ t) : Scan write n v pm t acc st :=
  ⟨h.rm_len, fun x hx => by
    obtain ⟨m, h1, h2, h3⟩ := h.marks x hx
    exact ⟨m, h1, h2.trans (hst x), h3⟩, h.cnt, h.out⟩

/-- One step of the scan. -/
def scanStep (write : Bool) (v : Nat) (st : UnionSt) (a : Nat) : Option UnionSt := do
  let m ← st.rm.get a
  if m ≠ v then do
    let rm ← st.rm.set a v
    let head ← if write then st.head.set st.cnt a else pure st.head
    pure { st with rm := rm, head := head, cnt := st.cnt + 1 }
  else pure st

theorem scan_list {write : Bool} {n v pm : Nat} {seen acc : List Nat} {st : UnionSt} (l : List Nat)
    (h : Scan write n v pm seen acc st) (hl : ∀ a ∈ l, a < n)
    (hcap : write = true → acc.length + (firstOcc seen l).length ≤ st.head.len) :
    Wp (l.foldlM (scanStep write v) st) (fun st' =>
      Scan write n v pm (firstOcc seen l ++ seen) (acc ++ firstOcc seen l) st' ∧ st'.head.len = st.head.len ∧ st'.tail = st.tail) := by
  induction l generalizing seen acc st with
  | nil => simpa [firstOcc] using h
  | cons a l ih =>
    rw [List.foldlM_cons, wp_bind]
    have ha : a < n := hl a (by simp)
    obtain ⟨m, hm1, hm2, hm3⟩ := h.marks a ha
    have hl' : ∀ b ∈ l, b < n := fun b hb => hl b (by simp [hb])
    unfold scanStep
    rw [wp_bind, wp_eq hm1]
    by_cases hs : a ∈ seen
    · rw [if_neg (by simp [hm2.2 hs]), wp_pure]
      have e : firstOcc seen (a :: l) = firstOcc seen l := by rw [firstOcc, if_pos hs]
      rw [e] at hcap ⊢
      exact ih h hl' hcap
    · have hne : m ≠ v := fun hc => hs (hm2.1 hc)
      have e : firstOcc seen (a :: l) = a :: firstOcc (a :: seen) l := by rw [firstOcc, if_neg hs]
      rw [e] at hcap ⊢
      rw [if_pos hne, wp_bind, Buf.wp_set]
      refine ⟨by rw [h.rm_len]; exact ha, ?_⟩
      have hmarks : ∀ x, x < n → ∃ m, (st.rm.upd a v).get x = some m ∧ (m = v ↔ x ∈ a :: seen) ∧ (m ≤ v ∨ m = pm) := by
        intro x hx
        by_cases hxa : x = a
        · subst hxa
          exact ⟨v, Buf.get_upd_self _ _ (by rw [h.rm_len]; exact hx), by simp, Or.inl le_rfl⟩
        · obtain ⟨m, h1, h2, h3⟩ := h.marks x hx
          exact ⟨m, by rw [Buf.get_upd_ne _ _ hxa]; exact h1, by simp [h2, hxa], h3⟩
      have key : ∀ hd : Buf Nat, hd.len = st.head.len → (write = true → Pre hd (acc ++ [a])) →
          Wp (List.foldlM (scanStep write v) { st with rm := st.rm.upd a v, head := hd, cnt := st.cnt + 1 } l) (fun st' =>
            Scan write n v pm (a :: firstOcc (a :: seen) l ++ seen) (acc ++ a :: firstOcc (a :: seen) l) st' ∧
              st'.head.len = st.head.len ∧ st'.tail = st.tail) := by
        intro hd hlen hout
        have h' : Scan write n v pm (a :: seen) (acc ++ [a]) { st with rm := st.rm.upd a v, head := hd, cnt := st.cnt + 1 } :=
          ⟨by simp [h.rm_len], hmarks, by simp [h.cnt], hout⟩
        refine (ih h' hl' (fun hw => ?_)).mono fun st' hst' => ?_
        · have := hcap hw; simp at this ⊢; omega
        · obtain ⟨h1, h2, h3⟩ := hst'
          refine ⟨?_, h2.trans hlen, h3⟩
          rw [List.append_assoc] at h1
          exact h1.congr (fun x => by simp; tauto)
      cases hw : write with
      | false =>
        subst hw
        simp only [Bool.false_eq_true, if_false, wp_bind, wp_pure]
        exact key st.head rfl (by simp)
      | true =>
        subst hw
        have hc := hcap rfl
        simp only [List.length_cons] at hc
        have hlt : st.cnt < st.head.len := by rw [h.cnt]; omega
        simp only [if_true, wp_bind, Buf.wp_set, wp_pure]
        refine ⟨hlt, key _ (by simp) (fun _ => ?_)⟩
        rw [h.cnt]
        exact (h.out rfl).snoc (by rw [← h.cnt]; exact hlt)

theorem scanRow_spec {write : Bool} {n v pm r : Nat} {seen acc : List Nat} {st : UnionSt} {head tail : Buf Nat} {rows : Nat → List Nat}
    (hc : Csr n head tail rows) (hr : r < n) (h : Scan write n v pm seen acc st)
    (hcap : write = true → acc.length + (firstOcc seen (rows r)).length ≤ st.head.len) :
    Wp (scanRow write head tail r v st) (fun st' =>
      Scan write n v pm (firstOcc seen (rows r) ++ seen) (acc ++ firstOcc seen (rows r)) st' ∧ st'.head.len = st.head.len ∧ st'.tail = st.tail) := by
  unfold scanRow
  rw [rowLoop_eq hc hr]
  exact scan_list (rows r) h (hc.range r hr) hcap

/-- Scanning several rows in sequence. -/
theorem scanMany_spec {α : Type} {write : Bool} {n v pm : Nat} (f : UnionSt → α → Option UnionSt) (g : α → List Nat) (l : List α)
    (hf : ∀ a ∈ l, ∀ seen acc st, Scan write n v pm seen acc st →
      (write = true → acc.length + (firstOcc seen (g a)).length ≤ st.head.len) →
      Wp (f st a) (fun st' => Scan write n v pm (firstOcc seen (g a) ++ seen) (acc ++ firstOcc seen (g a)) st' ∧
        st'.head.len = st.head.len ∧ st'.tail = st.tail))
    {seen acc : List Nat} {st : UnionSt} (h : Scan write n v pm seen acc st)
    (hcap : write = true → acc.length + (firstOcc seen (l.flatMap g)).length ≤ st.head.len) :
    Wp (l.foldlM f st) (fun st' =>
      Scan write n v pm (firstOcc seen (l.flatMap g) ++ seen) (acc ++ firstOcc seen (l.flatMap g)) st' ∧
        st'.head.len = st.head.len ∧ st'.tail = st.tail) := by
  induction l generalizing seen acc st with
  | nil => simpa [firstOcc] using h
  | cons a l ih =>
    rw [List.foldlM_cons, wp_bind]
    simp only [List.flatMap_cons, firstOcc_append] at hcap ⊢
    refine (hf a (by simp) seen acc st h (fun hw => ?_)).mono fun st1 h1 => ?_
    · have := hcap hw; simp at this; omega
    · obtain ⟨h1, h2, h3⟩ := h1
      refine (ih (fun b hb => hf b (by simp [hb])) h1 (fun hw => ?_)).mono fun st2 h2' => ?_
      · have := hcap hw; rw [h2]; simp at this ⊢; omega
      · obtain ⟨k1, k2, k3⟩ := h2'
        refine ⟨?_, k2.trans h2, k3.trans h3⟩
        rw [List.append_assoc] at k1
        exact k1.congr (fun x => by simp; tauto)

/-- State between output rows: all marks stem from earlier rows. -/
structure RowStart (write : Bool) (n v pm : Nat) (acc : List Nat) (st : UnionSt) : Prop where
  rm_len : st.rm.len = n
  marks : ∀ x, x < n → ∃ m, st.rm.get x = some m ∧ (m < v ∨ m = pm)
  cnt : st.cnt = acc.length
  out : write = true → Pre st.head acc

theorem Scan.rowStart {write : Bool} {n v pm : Nat} {seen acc : List Nat} {st : UnionSt} (h : Scan write n v pm seen acc st) :
    RowStart write n (v + 1) pm acc st :=
  ⟨h.rm_len, fun x hx => by
    obtain ⟨m, h1, -, h3⟩ := h.marks x hx
    exact ⟨m, h1, by omega⟩, h.cnt, h.out⟩

theorem RowStart.mono {write : Bool} {n v v' pm : Nat} {acc : List Nat} {st : UnionSt} (h : RowStart write n v pm acc st) (hv : v ≤ v') :
    RowStart write n v' pm acc st :=
  ⟨h.rm_len, fun x hx => by
    obtain ⟨m, h1, h3⟩ := h.marks x hx
    exact ⟨m, h1, by omega⟩, h.cnt, h.out⟩

theorem RowStart.scan {write : Bool} {n v pm : Nat} {acc : List Nat} {st : UnionSt} (h : RowStart write n v pm acc st) (hv : v < pm) :
    Scan write n v pm [] acc st :=
  ⟨h.rm_len, fun x hx => by
    obtain ⟨m, h1, h3⟩ := h.marks x hx
    exact ⟨m, h1, by simp; omega, by omega⟩, h.cnt, h.out⟩

theorem RowStart.scanSelf {write : Bool} {n v pm : Nat} {acc : List Nat} {st : UnionSt} (h : RowStart write n v pm acc st)
    (hv : v < pm) (hvn : v < n) : Scan write n v pm [v] acc { st with rm := st.rm.upd v v } :=
  ⟨by simp [h.rm_len], fun x hx => by
    obtain ⟨m, h1, h3⟩ := h.marks x hx
    by_cases hxv : x = v
    · subst hxv; exact ⟨x, Buf.get_upd_self _ _ (by rw [h.rm_len]; exact hx), by simp, Or.inl le_rfl⟩
    · exact ⟨m, by simp only [Buf.get_upd_ne _ _ hxv]; exact h1, by simp [hxv]; omega, by omega⟩, h.cnt, h.out⟩

theorem initMarkers_spec {cfg : Cfg} {n : Nat} {rm : Buf Nat} (h : rm.len = n) :
    Wp (initMarkers cfg n rm) (fun rm' => rm'.len = n ∧ ∀ x, x < n → rm'.get x = some cfg.pointMax) := by
  unfold initMarkers
  refine wp_forLt (fun v (b : Buf Nat) => b.len = n ∧ ∀ x, x < v → b.get x = some cfg.pointMax) (Nat.zero_le _) ⟨h, by simp⟩ ?_ (fun s hs => hs)
  rintro i s - hi ⟨h1, h2⟩
  rw [Buf.wp_set]
  refine ⟨by omega, by simp [h1], fun x hx => ?_⟩
  by_cases hxi : x = i
  · subst hxi; exact Buf.get_upd_self _ _ (by omega)
  · rw [Buf.get_upd_ne _ _ hxi]; exact h2 x (by omega)

section Union

variable {n pm : Nat} {dgs : List (Buf Nat × Buf Nat)} {rowss : List (Nat → List Nat)}

theorem unionRow_spec (write keep : Bool) (hd : List.Forall₂ (fun d r => Csr n d.1 d.2 r) dgs rowss) {v : Nat} (hv : v < n) (hpm : n ≤ pm)
    {acc : List Nat} {st : UnionSt} (h : RowStart write n v pm acc st)
    (hcap : write = true → acc.length + (unionRows keep rowss v).length ≤ st.head.len) :
    Wp (unionRow keep write dgs v st) (fun st' =>
      RowStart write n (v + 1) pm (acc ++ unionRows keep rowss v) st' ∧ st'.head.len = st.head.len ∧ st'.tail = st.tail) := by
  have main : ∀ seen st, Scan write n v pm seen acc st → (write = true → acc.length + (firstOcc seen (rowss.flatMap fun r => r v)).length ≤ st.head.len) →
      Wp (dgs.foldlM (fun st d => scanRow write d.1 d.2 v v st) st) (fun st' =>
        Scan write n v pm (firstOcc seen (rowss.flatMap fun r => r v) ++ seen) (acc ++ firstOcc seen (rowss.flatMap fun r => r v)) st' ∧
          st'.head.len = st.head.len ∧ st'.tail = st.tail) := by
    clear h hcap
    induction hd generalizing acc with
    | nil => intro seen st hs _; simpa [firstOcc] using hs
    | @cons d r dgs rowss hdr hrest ih =>
      intro seen st hs hcap
      rw [List.foldlM_cons, wp_bind]
      simp only [List.flatMap_cons, firstOcc_append] at hcap ⊢
      refine (scanRow_spec hdr hv hs (fun hw => ?_)).mono fun st1 h1 => ?_
      · have := hcap hw; simp at this; omega
      · obtain ⟨h1, h2, h3⟩ := h1
        refine (ih _ st1 h1 (fun hw => ?_)).mono fun st2 h2' => ?_
        · have := hcap hw; rw [h2]; simp at this ⊢; omega
        · obtain ⟨k1, k2, k3⟩ := h2'
          refine ⟨?_, k2.trans h2, k3.trans h3⟩
          rw [List.append_assoc] at k1
          exact k1.congr (fun x => by simp; tauto)
  unfold unionRow
  unfold unionRows at hcap ⊢
  cases keep with
  | true =>
    simp only [Bool.not_true, Bool.false_eq_true, if_false, if_true, wp_bind, wp_pure] at hcap ⊢
    exact (main [] _ (h.scan (by omega)) hcap).mono fun st' ⟨h1, h2, h3⟩ => ⟨h1.rowStart, h2, h3⟩
  | false =>
    simp only [Bool.not_false, Bool.false_eq_true, if_false, if_true, wp_bind, Buf.wp_set] at hcap ⊢
    refine ⟨by rw [h.rm_len]; exact hv, ?_⟩
    exact (main [v] _ (h.scanSelf (by omega) hv) hcap).mono fun st' ⟨h1, h2, h3⟩ => ⟨h1.rowStart, h2, h3⟩

theorem off_insert {f : Nat → List Nat} {pre : List Nat} {t n : Nat} (ht : t < n) (hp : t ∉ pre) :
    off (fun v => if v ∈ pre ++ [t] then f v else []) n = off (fun v => if v ∈ pre then f v else []) n + (f t).length := by
  induction n with
  | zero => omega
  | succ n ih =>
    simp only [off]
    by_cases htn : t = n
    · subst htn
      have : off (fun v => if v ∈ pre ++ [t] then f v else []) t = off (fun v => if v ∈ pre then f v else []) t :=
        off_congr (fun v hv => by have : v ≠ t := by omega
                                  simp [this])
      simp only [this]
      simp [hp]
    · rw [ih (by omega)]
      have : n ≠ t := fun h => htn h.symm
      simp [this]; omega

theorem doUnion_count {cfg : Cfg} (keep : Bool) (hd : List.Forall₂ (fun d r => Csr n d.1 d.2 r) dgs rowss) (hpm : n ≤ cfg.pointMax)
    {tails : Option (List Nat)} (hts : ∀ ts, tails = some ts → ts.Pairwise (· < ·) ∧ ∀ t ∈ ts, t < n)
    {rm oT oH : Buf Nat} (hrm : rm.len = n) :
    Wp (doUnion cfg n dgs rm tails keep false oT oH) (fun st' => st'.cnt = off (unionKeptRows keep rowss tails) n) := by
  unfold doUnion
  rw [wp_bind]
  refine (initMarkers_spec hrm).mono fun rm' ⟨hl, hg⟩ => ?_
  have h0 : ∀ v, RowStart false n v cfg.pointMax [] ⟨rm', oH, oT, 0⟩ := fun v => ⟨hl, fun x hx => ⟨_, hg x hx, Or.inr rfl⟩, rfl, by simp⟩
  cases tails with
  | none =>
    simp only
    refine wp_forLt (fun v st => ∃ acc, RowStart false n v cfg.pointMax acc st ∧ acc.length = off (unionKeptRows keep rowss none) v)
      (Nat.zero_le _) ⟨[], h0 0, rfl⟩ ?_ ?_
    · rintro v st - hv ⟨acc, hst, hacc⟩
      refine (unionRow_spec false keep hd hv hpm hst (by simp)).mono fun st' ⟨h1, _, _⟩ => ⟨_, h1, ?_⟩
      simp [off, hacc, unionKeptRows, keepTail]
    · rintro st ⟨acc, hst, hacc⟩
      rw [hst.cnt, hacc]
  | some ts =>
    obtain ⟨hsort, hlt⟩ := hts ts rfl
    simp only
    let I : List Nat → UnionSt → Prop := fun pre st => ∃ acc v,
        RowStart false n v cfg.pointMax acc st ∧ (∀ t ∈ ts, t ∉ pre → v ≤ t) ∧
        acc.length = off (fun v => if v ∈ pre then unionRows keep rowss v else []) n
    have key : Wp (ts.foldlM (fun st v => unionRow keep false dgs v st) ⟨rm', oH, oT, 0⟩) (I ts) := by
      refine wp_foldlM I ts _ ⟨[], 0, h0 0, by simp, ?_⟩ ?_
      · rw [off_nil (fun v _ => by simp)]; rfl
      · rintro pre t post st hsplit ⟨acc, v, hst, hv, hacc⟩
        have hp : ts.Pairwise (· < ·) := hsort
        rw [hsplit, List.pairwise_append] at hp
        obtain ⟨-, hp2, hp3⟩ := hp
        rw [List.pairwise_cons] at hp2
        have htpre : t ∉ pre := fun hc => by have := hp3 t hc t (by simp); omega
        have htn : t < n := hlt t (by simp [hsplit])
        have hst' := hst.mono (hv t (by simp [hsplit]) htpre)
        refine (unionRow_spec false keep hd htn hpm hst' (by simp)).mono fun st' ⟨h1, _, _⟩ => ⟨_, _, h1, ?_, ?_⟩
        · intro u hu hup
          rw [hsplit] at hu
          simp only [List.mem_append, List.mem_cons, List.mem_singleton] at hu hup
          have : u ∈ post := by tauto
          have := hp2.1 u this; omega
        · rw [off_insert htn htpre]; simp [hacc]
    refine key.mono fun st ⟨acc, v, hst, _, hacc⟩ => ?_
    rw [hst.cnt, hacc]
    exact off_congr (fun v _ => by simp [unionKeptRows, keepTail])

/-- Output of the writing pass. -/
theorem doUnion_write {cfg : Cfg} (keep : Bool) (hd : List.Forall₂ (fun d r => Csr n d.1 d.2 r) dgs rowss) (hpm : n ≤ cfg.pointMax)
    {tails : Option (List Nat)} (hts : ∀ ts, tails = some ts → ts.Pairwise (· < ·) ∧ ∀ t ∈ ts, t < n)
    {rm oT oH : Buf Nat} (hrm : rm.len = n) (hT : oT.len = n + 1) (hH : off (unionKeptRows keep rowss tails) n ≤ oH.len) :
    Wp (doUnion cfg n dgs rm tails keep true oT oH) (fun st' =>
      st'.cnt = off (unionKeptRows keep rowss tails) n ∧ Csr n st'.head st'.tail (unionKeptRows keep rowss tails) ∧
      st'.head.len = oH.len ∧ st'.tail.len = oT.len) := by
  have hrange : ∀ v, v < n → ∀ a ∈ unionKeptRows keep rowss tails v, a < n := by
    intro v hv a ha
    unfold unionKeptRows at ha
    split at ha
    · unfold unionRows at ha
      rw [mem_firstOcc] at ha
      obtain ⟨ha, -⟩ := ha
      rw [List.mem_flatMap] at ha
      obtain ⟨r, hr, ha⟩ := ha
      clear hts hrm hT hH hpm
      induction hd with
      | nil => simp at hr
      | cons h1 h2 ih =>
        rcases List.mem_cons.1 hr with rfl | hr
        · exact h1.range v hv a ha
        · exact ih hr
    · simp at ha
  unfold doUnion
  rw [wp_bind]
  refine (initMarkers_spec hrm).mono fun rm' ⟨hl, hg⟩ => ?_
  set R := unionKeptRows keep rowss tails with hR
  let Inv : Nat → UnionSt → Prop := fun v st => RowStart true n v cfg.pointMax (allArcs R v) st ∧
    (∀ u, u ≤ v → st.tail.get u = some (off R u)) ∧ st.head.len = oH.len ∧ st.tail.len = oT.len
  have h0 : Inv 0 ⟨rm', oH, oT.upd 0 0, 0⟩ := by
    refine ⟨⟨hl, fun x hx => ⟨_, hg x hx, Or.inr rfl⟩, rfl, fun _ => Pre.nil _⟩, ?_, rfl, by simp⟩
    intro u hu
    obtain rfl : u = 0 := by omega
    simp [Buf.get_upd_self _ _ (show 0 < oT.len by omega), off]
  have hcapv : ∀ v, v < n → (allArcs R v).length + (R v).length ≤ oH.len := by
    intro v hv
    rw [length_allArcs]
    have : off R (v + 1) ≤ off R n := off_mono (by omega)
    simp only [off] at this; omega
  have hset : ∀ v st, v < n → RowStart true n (v + 1) cfg.pointMax (allArcs R v ++ R v) st →
      (∀ u, u ≤ v → st.tail.get u = some (off R u)) → st.head.len = oH.len → st.tail.len = oT.len →
      v + 1 < st.tail.len ∧ Inv (v + 1) { st with tail := st.tail.upd (v + 1) st.cnt } := by
    intro v st hv h1 h2 h3 h4
    refine ⟨by omega, ?_, ?_, h3, by simpa using h4⟩
    · rw [allArcs_succ]; exact ⟨h1.rm_len, h1.marks, h1.cnt, h1.out⟩
    · intro u hu
      by_cases huv : u = v + 1
      · subst huv
        simp only
        rw [Buf.get_upd_self _ _ (by omega), h1.cnt]
        simp [off, length_allArcs]
      · simp only
        rw [Buf.get_upd_ne _ _ huv]; exact h2 u (by omega)
  have hfin : ∀ st, Inv n st → st.cnt = off R n ∧ Csr n st.head st.tail R ∧ st.head.len = oH.len ∧ st.tail.len = oT.len := by
    rintro st ⟨h1, h2, h3, h4⟩
    exact ⟨by rw [h1.cnt, length_allArcs], csr_of_pre (h1.out rfl) h2 hrange, h3, h4⟩
  cases tails with
  | none =>
    simp only [wp_bind, Buf.wp_set]
    refine ⟨by omega, ?_⟩
    refine wp_forLt Inv (Nat.zero_le _) h0 ?_ hfin
    rintro v st - hv ⟨h1, h2, h3, h4⟩
    rw [wp_bind]
    have hRv : R v = unionRows keep rowss v := by simp [hR, unionKeptRows, keepTail]
    refine (unionRow_spec true keep hd hv hpm h1 (fun _ => by rw [h3, ← hRv]; exact hcapv v hv)).mono fun st' ⟨k1, k2, k3⟩ => ?_
    rw [← hRv] at k1
    simp only [wp_bind, Buf.wp_set, wp_pure]
    exact hset v st' hv k1 (by rw [k3]; exact h2) (k2.trans h3) (by rw [k3]; exact h4)
  | some ts =>
    obtain ⟨hsort, hlt⟩ := hts ts rfl
    simp only [wp_bind, Buf.wp_set]
    refine ⟨by omega, ?_⟩
    refine wp_forLt (fun v p => Inv v p.1 ∧ p.2.Pairwise (· < ·) ∧ ∀ t, t ∈ p.2 ↔ (t ∈ ts ∧ v ≤ t)) (Nat.zero_le _)
      ⟨h0, hsort, by simp⟩ ?_ ?_
    · rintro v ⟨st, next⟩ - hv ⟨⟨h1, h2, h3, h4⟩, hn1, hn2⟩
      simp only at hn1 hn2 ⊢
      rw [wp_bind]
      have hskip : v ∉ ts → Wp (some (st, next)) (fun a => Wp (match a with
          | (st, next) => do
            let tail ← st.tail.set (v + 1) st.cnt
            pure ({ st with tail := tail }, next)) fun p => Inv (v + 1) p.1 ∧ p.2.Pairwise (· < ·) ∧ ∀ t, t ∈ p.2 ↔ (t ∈ ts ∧ v + 1 ≤ t)) := by
        intro hvts
        have hRv : R v = [] := by simp [hR, unionKeptRows, keepTail, hvts]
        simp only [wp_some, wp_bind, Buf.wp_set, wp_pure]
        have hh := hset v st hv (by rw [hRv, List.append_nil]; exact h1.mono (by omega)) h2 h3 h4
        refine ⟨hh.1, hh.2, hn1, fun t => ?_⟩
        rw [hn2]
        constructor
        · rintro ⟨a, b⟩
          have : t ≠ v := fun h => hvts (h ▸ a)
          exact ⟨a, by omega⟩
        · rintro ⟨a, b⟩; exact ⟨a, by omega⟩
      cases next with
      | nil =>
        have hvts : v ∉ ts := fun h => by have := (hn2 v).2 ⟨h, le_rfl⟩; simp at this
        exact hskip hvts
      | cons t rest =>
        unfold unionKeptRow
        by_cases htv : t = v
        · subst htv
          have htts : t ∈ ts := ((hn2 t).1 (by simp)).1
          have hRv : R t = unionRows keep rowss t := by simp [hR, unionKeptRows, keepTail, htts]
          simp only [if_true, wp_bind]
          refine (unionRow_spec true keep hd hv hpm h1 (fun _ => by rw [h3, ← hRv]; exact hcapv t hv)).mono fun st' ⟨k1, k2, k3⟩ => ?_
          rw [← hRv] at k1
          simp only [wp_bind, Buf.wp_set, wp_pure]
          have hh := hset t st' hv k1 (by rw [k3]; exact h2) (k2.trans h3) (by rw [k3]; exact h4)
          rw [List.pairwise_cons] at hn1
          refine ⟨hh.1, hh.2, hn1.2, fun u => ?_⟩
          have := hn2 u
          constructor
          · intro hu
            have hu' := this.1 (by simp [hu])
            have := hn1.1 u hu
            exact ⟨hu'.1, by omega⟩
          · rintro ⟨a, b⟩
            have h5 := this.2 ⟨a, by omega⟩
            rcases List.mem_cons.1 h5 with rfl | h6
            · omega
            · exact h6
        · simp only [if_neg htv]
          have hvts : v ∉ ts := fun h => by
            have h5 := (hn2 v).2 ⟨h, le_rfl⟩
            rcases List.mem_cons.1 h5 with h6 | h6
            · exact htv h6.symm
            · rw [List.pairwise_cons] at hn1
              have := hn1.1 v h6
              have := ((hn2 t).1 (by simp)).2
              omega
          exact hskip hvts
    · rintro ⟨st, next⟩ ⟨hI, -, -⟩
      simp only [wp_pure]
      exact hfin st hI

end Union

end Scc
