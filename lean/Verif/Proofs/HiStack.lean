/-
The stack with which `scc_hierarchical_clustering` starts.
-/
import Verif.Proofs.HiRun
import Verif.Proofs.RunFacts

namespace Scc

variable {F : Type} [FloatOps F]

/-- The stack `st` at the start. -/
structure HiStart (cfg : Cfg) (n S largest K T : Nat) (stack : HiStack) (store : Buf Nat) (st : List HiEntry) : Prop where
  items : stack.items = st.length
  cap : st.length ≤ stack.capacity ∧ stack.capacity = stack.clusters.buf.len ∧ stack.capacity ≤ cfg.sizeMax
  cells : ∀ (i : Nat) (e : HiEntry), st.reverse[i]? = some e → stack.clusters.buf.get i = some e.item
  storeLen : store.len = n
  stk : Stk store st n
  rounds : hiRounds st ≤ K
  pieces : ∀ e ∈ st, e.pts.Nodup ∧ (∀ x ∈ e.pts, x < n) ∧ e.org = e.pts ∧ e.item.marker = 0
  big : ∀ e ∈ st, 2 * S ≤ e.pts.length → e.pts.length ≤ largest
  disj : st.Pairwise fun e f => ∀ x ∈ e.pts, x ∉ f.pts
  total : (stackPts st).length = T
  largest : largest ≤ n

/-- With the work area, the invariant holds at the start. -/
theorem HiStart.inv {cfg : Cfg} {n S largest K T : Nat} {batch : Bool} {dist : Nat → Nat → F} {stack : HiStack} {b : HiBufs F} {st : List HiEntry} (h : HiStart cfg n S largest K T stack b.store st) {labels : Buf Int}
    (hl : HiLens n S largest b) (hm : b.marks = Buf.fill n 0) : HiInv cfg n S batch dist largest K T (st.map HiEntry.pts) labels ⟨stack, b, labels, 0⟩ st [] where
  items := h.items
  cap := h.cap
  cells := h.cells
  stk := h.stk
  lens := hl
  rounds := h.rounds
  pieces := by
    intro e he
    rw [List.append_nil] at he
    obtain ⟨h1, h2, h3, -⟩ := h.pieces e he
    refine ⟨h1, h2, ?_, ?_⟩
    · rw [h3]; exact List.mem_map_of_mem he
    · rw [h3]; exact ⟨fun x hx => hx, Or.inl rfl⟩
  big := by
    intro e he hb
    obtain ⟨h1, h2, h3, h4⟩ := h.pieces e he
    refine ⟨fun x hx => ⟨0, ?_, Nat.zero_le _⟩, by omega, h.big e he hb⟩
    show b.marks.get x = some 0
    rw [hm, Buf.get_fill, if_pos (h2 x hx)]
  disj := h.disj.imp fun hd _ _ => hd
  next := rfl
  nextLe := Nat.zero_le _
  small := by simp
  total := by simpa [stackPts] using h.total
  parts := fun _ => by simp [stackPts, List.flatMap_def]
  forest := fun _ lss hl => ⟨lss, hl, by simp⟩
  room := .refl _
  labelled := by simp
  same := by simp

/-! ### The empty clustering -/

omit [FloatOps F] in
theorem hiStackFail_spec {cb : Option (Blk HiItem)} {sb : Option (Blk Nat)} {line : Nat} {w : World} {L : Multiset Nat} (hl : w.live = ptrOwn sb + (ptrOwn cb + L))
    {Q : Except ErrorCode (HiStack × Blk Nat × Nat) → World → Prop} (hq : ∀ w', w'.fails = w.fails → w'.live = L → w'.err.code = .noMemory → Q (.error .noMemory) w') : WpM (hiStackFail cb sb line) w Q := by
  unfold hiStackFail
  rw [wpM_bind]
  refine wpM_freePtr (ptrOwn sb + L) (by rw [hl]; abel) fun w1 f1 l1 e1 => ?_
  rw [wpM_bind]
  refine wpM_freePtr L l1 fun w2 f2 l2 e2 => ?_
  refine wpM_fail fun w3 f3 l3 e3 => hq w3 (f3.trans (f2.trans f1)) (l3.trans l2) (by rw [e3])

/-- Allocation, with one statement for both outcomes. -/
theorem wpM_allocP {α : Type} {init : Buf α} {c : Bool} {w : World} {Q : Option (Blk α) → World → Prop}
    (h : ∀ p w', (p = none ∧ ¬ w.NoFail ∨ ∃ i, p = some ⟨i, init⟩) → w'.fails = w.fails → w'.live = ptrOwn p + w.live → w'.err = w.err → Q p w') : WpM (alloc init c) w Q :=
  wpM_alloc (fun w' hn f l e => h none w' (Or.inl ⟨rfl, hn⟩) f (by rw [l]; simp [ptrOwn]) e) (fun i w' f l e => h _ w' (Or.inr ⟨i, rfl⟩) f l e)

/-- The outcome of making the stack. -/
def StackPost (cfg : Cfg) (n S K T : Nat) (w : World) (big : Prop) (orgs : List (List Nat)) (r : Except ErrorCode (HiStack × Blk Nat × Nat)) (w' : World) : Prop :=
  w'.fails = w.fails ∧
    match r with
    | .error e => w'.live = w.live ∧ w'.err.code = e ∧ SysCause w big False e
    | .ok (stack, store, largest) => w'.live = {stack.clusters.id} + ({store.id} + w.live) ∧ w'.err = w.err ∧ ∃ st, HiStart cfg n S largest K T stack store.buf st ∧ st.map HiEntry.pts = orgs

theorem emptyStack_spec {cfg : Cfg} (hcfg : cfg.Valid) {hi : HiEnv F} (hhi : hi.Ok) {n S : Nat} {big : Prop} {w : World} (hn : 0 < n) :
    WpM (emptyStack hi n) w (StackPost cfg n S (2 * n) n w big [List.range n]) := by
  unfold emptyStack
  dsimp only
  rw [wpM_bind]
  refine wpM_allocP fun cb w1 hcb f1 l1 e1 => ?_
  rw [wpM_bind]
  refine wpM_allocP fun sb w2 hsb f2 l2 e2 => ?_
  have hfailcase : (¬ w.NoFail) → ∀ w', w'.fails = w2.fails → w'.live = w.live → w'.err.code = .noMemory → StackPost cfg n S (2 * n) n w big [List.range n] (.error .noMemory) w' := fun hnf w' f l e =>
    ⟨f.trans (f2.trans f1), l, e, Or.inr (Or.inl ⟨rfl, hnf⟩)⟩
  have hlive : w2.live = ptrOwn sb + (ptrOwn cb + w.live) := by rw [l2, l1]
  rcases hcb with ⟨rfl, hnf⟩ | ⟨i, rfl⟩
  · dsimp only
    exact hiStackFail_spec hlive (hfailcase hnf)
  rcases hsb with ⟨rfl, hnf⟩ | ⟨j, rfl⟩
  · dsimp only
    rw [noFail_congr f1] at hnf
    exact hiStackFail_spec hlive (hfailcase hnf)
  dsimp only
  rw [wpM_bind, wpM_useK]
  refine ⟨by rw [hlive]; simp [ptrOwn], ?_⟩
  refine wp_forLt (fun k (s : Buf Nat) => s.len = n ∧ ∀ i, i < k → s.get i = some i) (Nat.zero_le _) ⟨rfl, by omega⟩ ?_ ?_
  · rintro k s - hk ⟨h1, h2⟩
    rw [Buf.wp_set]
    refine ⟨by omega, h1, fun i hi => ?_⟩
    rw [Buf.get_upd]
    by_cases hik : i = k
    · rw [if_pos hik, if_pos (by omega), hik]
    · rw [if_neg hik]; exact h2 i (by omega)
  rintro s ⟨h1, h2⟩
  rw [wpM_bind, wpM_useK]
  refine ⟨by rw [hlive]; simp [ptrOwn], ?_⟩
  rw [Buf.wp_set]
  refine ⟨by show 0 < 1 + hi.logCap 20 n; omega, ?_⟩
  rw [wpM_pure]
  refine ⟨f2.trans f1, ?_, e2.trans e1, [⟨⟨n, 0, some 0⟩, List.range n, List.range n⟩], ?_, rfl⟩
  · dsimp only
    rw [hlive]; simp only [ptrOwn]; abel
  · have hlog := hhi.log 20 n
    have hsz := hcfg.size
    exact {
      items := rfl
      cap := ⟨by simp, rfl, by dsimp only; omega⟩
      cells := by
        intro i e he
        have h0 := (List.getElem?_eq_some_iff.1 he).1
        simp at h0
        subst h0
        simp at he
        subst he
        exact Buf.get_upd_self _ _ (by show 0 < 1 + hi.logCap 20 n; omega)
      storeLen := h1
      stk := by
        refine ⟨0, rfl, by simp, fun i x hx => ?_, by simp, trivial⟩
        have h0 := (List.getElem?_eq_some_iff.1 hx)
        obtain ⟨h0, h0'⟩ := h0
        simp at h0 h0'
        subst h0'
        rw [Nat.zero_add]; exact h2 i h0
      rounds := by simp [hiRounds]; omega
      pieces := by
        intro e he
        rw [List.mem_singleton] at he
        subst he
        exact ⟨List.nodup_range, fun x hx => List.mem_range.1 hx, rfl, rfl⟩
      big := by
        intro e he _
        rw [List.mem_singleton] at he
        subst he
        simp
      disj := List.pairwise_singleton _ _
      total := by simp [stackPts]
      largest := le_rfl }

/-! ### Refining a clustering -/

theorem members_succ (b : Buf Int) (i c : Nat) : members b (i + 1) c = members b i c ++ (if b.get i = some (c : Int) then [i] else []) := by
  unfold members
  rw [List.range_succ, List.filter_append]
  congr 1
  by_cases h : b.get i = some (c : Int)
  · simp [h]
  · simp [h]

/-- The position of the first member of cluster `c`, when the members of the clusters follow each other. -/
def startOf (b : Buf Int) (n c : Nat) : Nat := ((List.range c).flatMap (members b n)).length

theorem startOf_succ (b : Buf Int) (n c : Nat) : startOf b n (c + 1) = startOf b n c + (members b n c).length := by
  unfold startOf
  rw [List.range_succ, List.flatMap_append]
  simp

theorem startOf_mono (b : Buf Int) (n : Nat) {c d : Nat} (h : c ≤ d) : startOf b n c ≤ startOf b n d := by
  induction h with
  | refl => exact le_rfl
  | step _ ih => rw [Nat.succ_eq_add_one, startOf_succ]; omega

theorem members_disjoint {b : Buf Int} {n c d v : Nat} (hc : v ∈ members b n c) (hd : v ∈ members b n d) : c = d := by
  have h1 := (mem_members.1 hc).2
  have h2 := (mem_members.1 hd).2
  rw [h1] at h2
  simpa using h2

theorem nodup_clusters (b : Buf Int) (n k : Nat) : ((List.range k).flatMap (members b n)).Nodup := by
  rw [List.nodup_flatMap]
  refine ⟨fun c _ => nodup_members, ?_⟩
  refine (List.nodup_range (n := k)).imp ?_
  intro c d hcd v hc hd
  exact hcd (members_disjoint hc hd)

theorem startOf_le (b : Buf Int) (n k : Nat) : startOf b n k ≤ n := by
  have : ((List.range k).flatMap (members b n)).length ≤ (List.range n).length := by
    refine ((nodup_clusters b n k).subperm fun v hv => ?_).length_le
    obtain ⟨c, -, hc⟩ := List.mem_flatMap.1 hv
    exact List.mem_range.2 (mem_members.1 hc).1
  simpa [startOf] using this

theorem itemOf_nat {clusters : Buf HiItem} {c : Nat} : itemOf clusters (c : Int) = clusters.get c := by
  unfold itemOf
  rw [if_neg (by omega)]
  rfl

theorem na_ne {cfg : Cfg} (hcfg : cfg.Valid) {c k : Nat} (hk : k ≤ cfg.clabelMax) (hc : c < k) : (c : Int) ≠ cfg.na := by
  rcases hcfg.na_out with h | h
  · omega
  · omega

theorem countItems_spec {cfg : Cfg} (hcfg : cfg.Valid) {n k cap : Nat} (hk : k ≤ cfg.clabelMax) (hcap : k ≤ cap) {labels : Buf Int} (hv : ValidLabels cfg labels n k) :
    Wp (countItems cfg n labels (Buf.fill cap ⟨0, 0, none⟩)) fun cl => cl.len = cap ∧ ∀ c, c < k → cl.get c = some ⟨(members labels n c).length, 0, none⟩ := by
  unfold countItems
  refine wp_forLt (fun i cl => cl.len = cap ∧ ∀ c, c < k → cl.get c = some ⟨(members labels i c).length, 0, none⟩) (Nat.zero_le _) ⟨rfl, fun c hc => ?_⟩ ?_ (fun cl h => h)
  · rw [Buf.get_fill, if_pos (by omega)]; rfl
  · rintro i cl - hi ⟨h1, h2⟩
    rcases hv i hi with hna | ⟨c, hc, hget⟩
    · rw [wp_bind, wp_eq hna, if_neg (by simp), wp_pure]
      refine ⟨h1, fun c hc => ?_⟩
      rw [h2 c hc, members_succ, if_neg, List.append_nil]
      rw [hna]
      intro h
      exact na_ne hcfg hk hc (Option.some.inj h).symm
    · rw [wp_bind, wp_eq hget, if_pos (na_ne hcfg hk hc), wp_bind, itemOf_nat, wp_eq (h2 c hc), Buf.wp_set]
      refine ⟨by show c < cl.len; omega, h1, fun d hd => ?_⟩
      show (cl.upd c _).get d = _
      rw [Buf.get_upd, members_succ, hget]
      by_cases hdc : d = c
      · subst hdc
        rw [if_pos rfl, if_pos (by omega), if_pos rfl]; simp
      · rw [if_neg hdc, h2 d hd, if_neg (by simp; omega), List.append_nil]

theorem placeItems_spec {n k cap : Nat} (hk : 0 < k) (hcap : k ≤ cap) {labels : Buf Int} {cl : Buf HiItem} (hl : cl.len = cap)
    (hget : ∀ c, c < k → cl.get c = some ⟨(members labels n c).length, 0, none⟩) :
    Wp (placeItems k cl) fun r => r.1.len = cap ∧ (∀ c, c < k → r.1.get c = some ⟨(members labels n c).length, 0, some (startOf labels n (c + 1))⟩) ∧
      (∀ c, 0 < c → c < k → (members labels n c).length ≤ r.2) ∧ r.2 ≤ n := by
  unfold placeItems
  rw [wp_bind, wp_eq (hget 0 hk), wp_bind, Buf.wp_set]
  refine ⟨by omega, ?_⟩
  refine wp_forLt (fun i (r : Buf HiItem × Nat) => r.1.len = cap ∧ (∀ c, c < k → r.1.get c = some ⟨(members labels n c).length, 0, if c < i then some (startOf labels n (c + 1)) else none⟩) ∧
      (∀ c, 0 < c → c < i → (members labels n c).length ≤ r.2) ∧ r.2 ≤ n) (by omega) ?_ ?_ ?_
  · refine ⟨hl, fun c hc => ?_, by omega, Nat.zero_le _⟩
    show (cl.upd 0 _).get c = _
    rw [Buf.get_upd]
    by_cases h0 : c = 0
    · subst h0
      rw [if_pos rfl, if_pos (by omega), if_pos (by omega), startOf_succ]
      simp [startOf]
    · rw [if_neg h0, hget c hc, if_neg (by omega)]
  · rintro i ⟨r, lg⟩ h1i hi ⟨h1, h2, h3, h4⟩
    dsimp only at h1 h2 h3 h4 ⊢
    have hp := h2 (i - 1) (by omega)
    rw [if_pos (by omega), show i - 1 + 1 = i by omega] at hp
    have hc := h2 i hi
    rw [if_neg (by omega)] at hc
    rw [wp_bind, wp_eq hp, wp_bind, wp_eq rfl, wp_bind, wp_eq hc, wp_bind, Buf.wp_set]
    refine ⟨by omega, ?_⟩
    rw [wp_pure]
    refine ⟨h1, fun c hc' => ?_, fun c hc0 hci => ?_, ?_⟩
    · show (r.upd i _).get c = _
      rw [Buf.get_upd]
      by_cases hci : c = i
      · subst hci
        rw [if_pos rfl, if_pos (by omega), if_pos (by omega), startOf_succ]
      · rw [if_neg hci, h2 c hc']
        by_cases hlt : c < i
        · rw [if_pos hlt, if_pos (by omega)]
        · rw [if_neg hlt, if_neg (by omega)]
    · dsimp only
      by_cases hci' : c = i
      · subst hci'; split <;> omega
      · have := h3 c hc0 (by omega)
        split <;> omega
    · dsimp only
      have : (members labels n i).length ≤ n := by
        have := List.length_filter_le (fun v => decide (labels.get v = some (i : Int))) (List.range n)
        simpa [members] using this
      split <;> omega
  · rintro ⟨r, lg⟩ ⟨h1, h2, h3, h4⟩
    exact ⟨h1, fun c hc => by rw [h2 c hc, if_pos hc], h3, h4⟩

theorem members_length_mono {b : Buf Int} {i n c : Nat} (h : i ≤ n) : (members b i c).length ≤ (members b n c).length := by
  induction h with
  | refl => exact le_rfl
  | step _ ih => rw [Nat.succ_eq_add_one, members_succ, List.length_append]; omega

theorem storeItems_spec {cfg : Cfg} (hcfg : cfg.Valid) {n k cap : Nat} (hk : k ≤ cfg.clabelMax) (hcap : k ≤ cap) {labels : Buf Int} (hv : ValidLabels cfg labels n k) {cl : Buf HiItem} (hl : cl.len = cap)
    (hget : ∀ c, c < k → cl.get c = some ⟨(members labels n c).length, 0, some (startOf labels n (c + 1))⟩) {store : Buf Nat} (hs : store.len = n) :
    Wp (storeItems cfg n labels cl store) fun r => r.1.len = cap ∧ r.2.len = n ∧ ∀ c, c < k → r.1.get c = some ⟨(members labels n c).length, 0, some (startOf labels n c)⟩ ∧
      Seg r.2 (startOf labels n c) (members labels n c).reverse := by
  unfold storeItems
  refine wp_forLt (fun i (r : Buf HiItem × Buf Nat) => r.1.len = cap ∧ r.2.len = n ∧ ∀ c, c < k →
      r.1.get c = some ⟨(members labels n c).length, 0, some (startOf labels n (c + 1) - (members labels i c).length)⟩ ∧
      Seg r.2 (startOf labels n (c + 1) - (members labels i c).length) (members labels i c).reverse) (Nat.zero_le _) ⟨hl, hs, fun c hc => ⟨?_, ?_⟩⟩ ?_ ?_
  · rw [hget c hc]; simp [members]
  · intro i x hx; simp [members] at hx
  · rintro i ⟨r, s⟩ - hi ⟨h1, h2, h3⟩
    dsimp only at h1 h2 h3 ⊢
    rcases hv i hi with hna | ⟨c, hc, hlab⟩
    · rw [wp_bind, wp_eq hna, if_neg (by simp), wp_pure]
      refine ⟨h1, h2, fun c hc => ?_⟩
      rw [members_succ, if_neg, List.append_nil]
      · exact h3 c hc
      · rw [hna]
        intro h
        exact na_ne hcfg hk hc (Option.some.inj h).symm
    · have hlen : (members labels i c).length + 1 ≤ (members labels n c).length := by
        have h4 := members_length_mono (b := labels) (c := c) (show i + 1 ≤ n from hi)
        rw [members_succ, if_pos hlab, List.length_append] at h4
        exact h4
      have hst := startOf_succ labels n c
      have hend := startOf_le labels n k
      have hmono := startOf_mono labels n (show c + 1 ≤ k from hc)
      rw [wp_bind, wp_eq hlab, if_pos (na_ne hcfg hk hc), wp_bind, itemOf_nat, wp_eq (h3 c hc).1, wp_bind, wp_eq rfl, if_neg (by omega), wp_bind, Buf.wp_set]
      refine ⟨by show c < r.len; omega, ?_⟩
      rw [wp_bind, Buf.wp_set]
      refine ⟨by omega, ?_⟩
      rw [wp_pure]
      refine ⟨h1, h2, fun d hd => ?_⟩
      dsimp only
      by_cases hdc : d = c
      · subst hdc
        rw [members_succ, if_pos hlab, List.length_append, List.reverse_append]
        refine ⟨?_, ?_⟩
        · show (r.upd d _).get d = _
          rw [Buf.get_upd_self _ _ (by omega)]
          rfl
        · intro j x hx
          have heq : startOf labels n (d + 1) - ((members labels i d).length + [i].length) = startOf labels n (d + 1) - (members labels i d).length - 1 := by simp; omega
          rw [heq]
          cases j with
          | zero =>
            simp at hx
            show (s.upd (startOf labels n (d + 1) - (members labels i d).length - 1) i).get (startOf labels n (d + 1) - (members labels i d).length - 1) = some x
            rw [Buf.get_upd_self _ _ (by omega), hx]
          | succ j =>
            rw [Buf.get_upd_ne _ _ (by omega)]
            have := (h3 d hd).2 j x (by simpa using hx)
            rw [← this]; congr 1; omega
      · rw [members_succ, if_neg (by rw [hlab]; simp; omega), List.append_nil]
        refine ⟨?_, ?_⟩
        · show (r.upd c _).get d = _
          rw [Buf.get_upd_ne _ _ hdc]; exact (h3 d hd).1
        · intro j x hx
          have hj := (List.getElem?_eq_some_iff.1 hx).1
          rw [List.length_reverse] at hj
          have hld := members_length_mono (b := labels) (c := d) (show i ≤ n by omega)
          have hsd := startOf_succ labels n d
          rw [Buf.get_upd_ne]
          · exact (h3 d hd).2 j x hx
          · rcases Nat.lt_or_gt_of_ne hdc with hlt | hgt
            · have := startOf_mono labels n (show d + 1 ≤ c from hlt)
              omega
            · have := startOf_mono labels n (show c + 1 ≤ d from hgt)
              omega
  · rintro ⟨r, s⟩ ⟨h1, h2, h3⟩
    refine ⟨h1, h2, fun c hc => ?_⟩
    have h4 := h3 c hc
    rw [startOf_succ, Nat.add_sub_cancel] at h4
    exact h4

/-- The clusters of the clustering that is refined, on the stack. -/
def oldEntry (labels : Buf Int) (n c : Nat) : HiEntry := ⟨⟨(members labels n c).length, 0, some (startOf labels n c)⟩, (members labels n c).reverse, (members labels n c).reverse⟩

def oldStack (labels : Buf Int) (n k : Nat) : List HiEntry := ((List.range k).map (oldEntry labels n)).reverse

theorem oldStack_succ (labels : Buf Int) (n k : Nat) : oldStack labels n (k + 1) = oldEntry labels n k :: oldStack labels n k := by
  unfold oldStack
  rw [List.range_succ, List.map_append, List.reverse_append]
  rfl

theorem oldStack_stk {labels : Buf Int} {n k : Nat} {store : Buf Nat} (h : ∀ c, c < k → Seg store (startOf labels n c) (members labels n c).reverse) : Stk store (oldStack labels n k) (startOf labels n k) := by
  induction k with
  | zero => trivial
  | succ k ih =>
    rw [oldStack_succ]
    refine ⟨startOf labels n k, rfl, by simp [oldEntry], h k (by omega), ?_, ih fun c hc => h c (by omega)⟩
    rw [startOf_succ]; simp [oldEntry]

theorem oldStack_rounds (labels : Buf Int) (n k : Nat) : hiRounds (oldStack labels n k) ≤ 2 * startOf labels n k + k := by
  induction k with
  | zero => simp [oldStack, hiRounds]
  | succ k ih =>
    rw [oldStack_succ, startOf_succ]
    simp only [hiRounds, oldEntry, List.length_reverse]
    omega

theorem oldStack_total (labels : Buf Int) (n k : Nat) : (stackPts (oldStack labels n k)).length = startOf labels n k := by
  induction k with
  | zero => simp [oldStack, stackPts, startOf]
  | succ k ih =>
    rw [oldStack_succ, startOf_succ, ← ih]
    simp [stackPts, oldEntry]; omega

theorem mem_oldStack {labels : Buf Int} {n k : Nat} {e : HiEntry} : e ∈ oldStack labels n k ↔ ∃ c, c < k ∧ e = oldEntry labels n c := by
  unfold oldStack
  simp only [List.mem_reverse, List.mem_map, List.mem_range]
  exact ⟨fun ⟨c, h1, h2⟩ => ⟨c, h1, h2.symm⟩, fun ⟨c, h1, h2⟩ => ⟨c, h1, h2.symm⟩⟩

theorem initStack_spec {cfg : Cfg} (hcfg : cfg.Valid) {hi : HiEnv F} (hhi : hi.Ok) {n S k : Nat} (hk0 : 0 < k) (hk : k ≤ cfg.clabelMax) (hk64 : k + 1000 < 2 ^ 64) {lids : List Nat} {labels : Buf Int} (hv : ValidLabels cfg labels n k)
    (hfirst : FirstFits labels n k S) {big : Prop} (hbig : cfg.sizeMax < k + 1000 → big) {w : World} (hlids : ∀ i ∈ lids, i ∈ w.live) :
    WpM (initStack cfg hi n k lids labels) w (StackPost cfg n S (2 * n + k) (startOf labels n k) w big ((oldStack labels n k).map HiEntry.pts)) := by
  have hlog := hhi.log 10 n
  unfold initStack
  dsimp only
  rw [show u64 (k + 1 + hi.logCap 10 n) = k + 1 + hi.logCap 10 n from Nat.mod_eq_of_lt (by omega)]
  by_cases hsz : cfg.sizeMax < k + 1 + hi.logCap 10 n
  · rw [if_pos hsz]
    exact wpM_fail fun w' f l e => ⟨f, l, by rw [e], Or.inl ⟨rfl, hbig (by omega)⟩⟩
  rw [if_neg hsz, wpM_bind]
  refine wpM_allocP fun cb w1 hcb f1 l1 e1 => ?_
  rw [wpM_bind]
  refine wpM_allocP fun sb w2 hsb f2 l2 e2 => ?_
  have hfailcase : (¬ w.NoFail) → ∀ w', w'.fails = w2.fails → w'.live = w.live → w'.err.code = .noMemory →
      StackPost cfg n S (2 * n + k) (startOf labels n k) w big ((oldStack labels n k).map HiEntry.pts) (.error .noMemory) w' := fun hnf w' f l e =>
    ⟨f.trans (f2.trans f1), l, e, Or.inr (Or.inl ⟨rfl, hnf⟩)⟩
  have hlive : w2.live = ptrOwn sb + (ptrOwn cb + w.live) := by rw [l2, l1]
  rcases hcb with ⟨rfl, hnf⟩ | ⟨i, rfl⟩
  · dsimp only
    exact hiStackFail_spec hlive (hfailcase hnf)
  rcases hsb with ⟨rfl, hnf⟩ | ⟨j, rfl⟩
  · dsimp only
    rw [noFail_congr f1] at hnf
    exact hiStackFail_spec hlive (hfailcase hnf)
  dsimp only
  rw [wpM_bind, wpM_useK]
  refine ⟨fun x hx => ?_, ?_⟩
  · rw [hlive]
    simp only [ptrOwn, Multiset.mem_add, Multiset.mem_singleton]
    simp only [List.mem_cons] at hx
    rcases hx with rfl | rfl | hx
    · exact Or.inr (Or.inl rfl)
    · exact Or.inl rfl
    · exact Or.inr (Or.inr (hlids x hx))
  rw [wp_bind]
  refine (countItems_spec hcfg hk (by omega) hv).mono ?_
  rintro c1 ⟨a1, a2⟩
  rw [wp_bind]
  refine (placeItems_spec hk0 (by omega) a1 a2).mono ?_
  rintro ⟨c2, largest⟩ ⟨b1, b2, b3, b4⟩
  dsimp only at b1 b2 b3 b4 ⊢
  rw [wp_bind]
  refine (storeItems_spec hcfg hk (by omega) hv b1 b2 (store := Buf.raw n) rfl).mono ?_
  rintro ⟨c3, s⟩ ⟨d1, d2, d3⟩
  dsimp only at d1 d2 d3 ⊢
  rw [wp_pure]
  dsimp only
  rw [wpM_pure]
  refine ⟨f2.trans f1, ?_, e2.trans e1, oldStack labels n k, ?_, rfl⟩
  · dsimp only
    rw [hlive]; simp only [ptrOwn]; abel
  have hle := startOf_le labels n k
  have hlen : (oldStack labels n k).length = k := by simp [oldStack]
  exact {
    items := hlen.symm
    cap := ⟨by rw [hlen]; dsimp only; omega, d1.symm, by dsimp only; omega⟩
    cells := by
      intro c e he
      unfold oldStack at he
      rw [List.reverse_reverse, List.getElem?_map] at he
      obtain ⟨c', h1, h2⟩ := Option.map_eq_some_iff.1 he
      obtain ⟨h3, h4⟩ := List.getElem?_eq_some_iff.1 h1
      simp at h3 h4
      subst h4
      rw [← h2]
      exact (d3 c h3).1
    storeLen := d2
    stk := (oldStack_stk fun c hc => (d3 c hc).2).mono hle
    rounds := (oldStack_rounds labels n k).trans (by omega)
    pieces := by
      intro e he
      obtain ⟨c, hc, rfl⟩ := mem_oldStack.1 he
      exact ⟨List.nodup_reverse.2 nodup_members, fun x hx => (mem_members.1 (List.mem_reverse.1 hx)).1, rfl, rfl⟩
    big := by
      intro e he hb
      obtain ⟨c, hc, rfl⟩ := mem_oldStack.1 he
      simp only [oldEntry, List.length_reverse] at hb ⊢
      rcases Nat.eq_zero_or_pos c with rfl | hpos
      · rcases hfirst with h0 | ⟨c', h1, h2, h3⟩
        · omega
        · have := b3 c' h1 h2; omega
      · exact b3 c hpos hc
    disj := by
      unfold oldStack
      rw [List.pairwise_reverse, List.pairwise_map]
      refine (List.nodup_range (n := k)).imp ?_
      intro c d hcd x hx hx'
      exact hcd (members_disjoint (List.mem_reverse.1 hx') (List.mem_reverse.1 hx))
    total := oldStack_total labels n k
    largest := b4 }

end Scc
