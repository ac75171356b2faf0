/-
The main loop of `scc_hierarchical_clustering`.
-/
import Verif.Proofs.HiCenters

namespace Scc

variable {F : Type} [FloatOps F]

/-! ### Labels -/

omit [FloatOps F] in
theorem labelCluster_spec {store : Buf Nat} {X : List Nat} {off mk label : Nat} {labels : Buf Int} (hs : Seg store off X) (hl : ∀ x ∈ X, x < labels.len) :
    Wp (labelCluster store ⟨X.length, mk, some off⟩ label labels) fun l => l.len = labels.len ∧ ∀ v, l.get v = if v ∈ X then some (label : Int) else labels.get v := by
  unfold labelCluster
  rw [wp_bind, wp_eq rfl]
  refine wp_forLt (fun k l => l.len = labels.len ∧ ∀ v, l.get v = if v ∈ X.take k then some (label : Int) else labels.get v) (Nat.zero_le _) ?_ ?_ ?_
  · exact ⟨rfl, fun v => by simp⟩
  · rintro k l - hk ⟨h1, h2⟩
    rw [wp_bind, wp_eq (hs k _ (List.getElem?_eq_getElem hk)), Buf.wp_set]
    refine ⟨by rw [h1]; exact hl _ (List.getElem_mem hk), h1, fun v => ?_⟩
    rw [Buf.get_upd, List.take_succ_eq_append_getElem hk]
    simp only [List.mem_append, List.mem_singleton]
    by_cases hv : v = X[k]
    · rw [if_pos hv, if_pos (by rw [h1]; exact hl _ (List.getElem_mem hk)), if_pos (Or.inr hv)]
    · rw [if_neg hv, h2]
      by_cases hv' : v ∈ X.take k
      · rw [if_pos hv', if_pos (Or.inl hv')]
      · rw [if_neg hv', if_neg (by tauto)]
  · rintro l ⟨h1, h2⟩
    exact ⟨h1, fun v => by rw [h2, List.take_of_length_le (by simp)]⟩

/-! ### The invariant -/

/-- A cluster on the stack: the item, its members, and the cluster of the original clustering it is part of. -/
structure HiEntry where
  item : HiItem
  pts : List Nat
  org : List Nat

/-- The cluster is the original one, or a part of at least `S` points of a large one. -/
def Piece (S : Nat) (org X : List Nat) : Prop := X ⊆ org ∧ (X = org ∨ 2 * S ≤ org.length ∧ S ≤ X.length)

/-- Members of the clusters on the stack (top first), in the store before position `e`. -/
def Stk (store : Buf Nat) : List HiEntry → Nat → Prop
  | [], _ => True
  | x :: rest, e => ∃ off, x.item.members = some off ∧ x.item.size = x.pts.length ∧ Seg store off x.pts ∧ off + x.pts.length ≤ e ∧ Stk store rest off

/-- The number of rounds that a stack takes, at most. -/
def hiRounds : List HiEntry → Nat
  | [] => 0
  | x :: rest => max 1 (2 * x.pts.length - 1) + hiRounds rest

theorem length_le_rounds (st : List HiEntry) : st.length ≤ hiRounds st := by
  induction st with
  | nil => simp [hiRounds]
  | cons x rest ih => simp only [hiRounds, List.length_cons]; omega

theorem Stk.congr {s s' : Buf Nat} {st : List HiEntry} {e : Nat} (h : Stk s st e) (hs : ∀ i, i < e → s'.get i = s.get i) : Stk s' st e := by
  induction st generalizing e with
  | nil => trivial
  | cons x rest ih =>
    obtain ⟨off, h1, h2, h3, h4, h5⟩ := h
    refine ⟨off, h1, h2, fun i y hy => ?_, h4, ih h5 fun i hi => hs i (by omega)⟩
    have := (List.getElem?_eq_some_iff.1 hy).1
    rw [hs _ (by omega)]; exact h3 i y hy

theorem Stk.mono {s : Buf Nat} {st : List HiEntry} {e e' : Nat} (h : Stk s st e) (he : e ≤ e') : Stk s st e' := by
  cases st with
  | nil => trivial
  | cons x rest =>
    obtain ⟨off, h1, h2, h3, h4, h5⟩ := h
    exact ⟨off, h1, h2, h3, by omega, h5⟩

/-- What never changes: the lengths of the arrays. -/
structure HiLens (n S largest : Nat) (b : HiBufs F) : Prop where
  store : b.store.len = n
  idx1 : S ≤ b.idx1.len ∧ 100 ≤ b.idx1.len
  idx2 : S ≤ b.idx2.len ∧ 100 ≤ b.idx2.len
  dists : 2 * largest ≤ b.dists.len ∧ 100 ≤ b.dists.len
  edges1 : largest ≤ b.edges1.len
  edges2 : largest ≤ b.edges2.len

theorem HiLens.same {n S largest : Nat} {b b' : HiBufs F} (h : HiLens n S largest b) (hs : SameLens b b') : HiLens n S largest b' :=
  ⟨hs.store.trans h.store, by rw [hs.idx1]; exact h.idx1, by rw [hs.idx2]; exact h.idx2, by rw [hs.dists]; exact h.dists, by rw [hs.edges1]; exact h.edges1, by rw [hs.edges2]; exact h.edges2⟩

/-- All points on a stack. -/
def stackPts (st : List HiEntry) : List Nat := st.flatMap HiEntry.pts

/-- A label array that has the length of another one and values wherever that one has. -/
structure KeptLabels (labels0 labels : Buf Int) : Prop where
  len : labels.len = labels0.len
  get : ∀ v x, labels0.get v = some x → ∃ y, labels.get v = some y

theorem KeptLabels.refl (l : Buf Int) : KeptLabels l l := ⟨rfl, fun _ x h => ⟨x, h⟩⟩

/-- The state of the main loop: the clusters on the stack, those that are done, and labels. -/
structure HiInv (cfg : Cfg) (n S : Nat) (batch : Bool) (dist : Nat → Nat → F) (largest K T : Nat) (orgs : List (List Nat)) (labels0 : Buf Int) (r : HiRun F) (st done : List HiEntry) : Prop where
  items : r.stack.items = st.length
  cap : st.length ≤ r.stack.capacity ∧ r.stack.capacity = r.stack.clusters.buf.len ∧ r.stack.capacity ≤ cfg.sizeMax
  cells : ∀ (i : Nat) (e : HiEntry), st.reverse[i]? = some e → r.stack.clusters.buf.get i = some e.item
  stk : Stk r.bufs.store st n
  lens : HiLens n S largest r.bufs
  rounds : hiRounds st ≤ K
  pieces : ∀ e ∈ st ++ done, e.pts.Nodup ∧ (∀ x ∈ e.pts, x < n) ∧ e.org ∈ orgs ∧ Piece S e.org e.pts
  big : ∀ e ∈ st, 2 * S ≤ e.pts.length → MarksLe r.bufs.marks e.item.marker e.pts ∧ e.item.marker ≤ cfg.fast16Max ∧ e.pts.length ≤ largest
  disj : st.Pairwise fun e f => 2 * S ≤ e.pts.length → 2 * S ≤ f.pts.length → ∀ x ∈ e.pts, x ∉ f.pts
  next : r.next = done.length
  nextLe : r.next ≤ cfg.clabelMax
  small : ∀ e ∈ done, 0 < e.pts.length ∧ e.pts.length < 2 * S
  total : (stackPts st).length + (stackPts done).length = T
  parts : (∀ O ∈ orgs, Spread S dist O) → (stackPts done ++ stackPts st).Perm orgs.flatten
  forest : (∀ O ∈ orgs, Spread S dist O) → ∀ lss, List.Forall₂ (HiTree S batch dist) (st.map HiEntry.pts) lss →
    ∃ oss, List.Forall₂ (HiTree S batch dist) orgs oss ∧ oss.flatten = done.map HiEntry.pts ++ lss.flatten
  room : KeptLabels labels0 r.labels
  labelled : ∀ (v j : Nat) (e : HiEntry), done[j]? = some e → v ∈ e.pts → (∀ (j' : Nat) (e' : HiEntry), j < j' → done[j']? = some e' → v ∉ e'.pts) → r.labels.get v = some (j : Int)
  same : ∀ v, (∀ e ∈ done, v ∉ e.pts) → r.labels.get v = labels0.get v

theorem good_ne {S : Nat} {dist : Nat → Nat → F} {O X : List Nat} (hs : Spread S dist O) (hX : X.Nodup) (hsub : X ⊆ O) (hsize : 2 * S ≤ X.length) {c1 c2 : Nat} (h : Centers dist X c1 c2) : c1 ≠ c2 := by
  rintro rfl
  have h1 := hs c1 (hsub h.mem1)
  have h2 : X ⊆ O.filter fun x => FloatOps.le (dist c1 x) (dist c1 c1) := fun x hx => List.mem_filter.2 ⟨hsub hx, h.far1 x hx⟩
  have h3 := (hX.subperm h2).length_le
  omega

/-! ### Steps -/

theorem checkCapacity_spec {cfg : Cfg} (hc : 65535 ≤ cfg.sizeMax) {st : HiStack} {w : World} {L : Multiset Nat} (hl : w.live = {st.clusters.id} + L) (hcap : st.items ≤ st.capacity) (hlen : st.capacity = st.clusters.buf.len)
    (hmax : st.capacity ≤ cfg.sizeMax) {big : Prop} (hbig : cfg.sizeMax < 2 * st.items + 16 → big) :
    WpM (checkCapacity cfg st) w fun r w' => w'.fails = w.fails ∧
      match r with
      | .error e => w'.live = w.live ∧ w'.err.code = e ∧ SysCause w big False e
      | .ok st' => w'.live = {st'.clusters.id} + L ∧ w'.err = w.err ∧ st'.items = st.items ∧ st.items < st'.capacity ∧ st'.capacity = st'.clusters.buf.len ∧ st'.capacity ≤ cfg.sizeMax ∧
          ∀ i x, st.clusters.buf.get i = some x → st'.clusters.buf.get i = some x := by
  unfold checkCapacity
  by_cases h : st.items = st.capacity
  · rw [if_pos h]
    dsimp only
    by_cases h2 : cfg.sizeMax < (st.capacity + 16 + st.capacity / 16) % (cfg.sizeMax + 1) ∨ (st.capacity + 16 + st.capacity / 16) % (cfg.sizeMax + 1) < st.capacity
    · rw [if_pos h2]
      refine wpM_fail fun w' f l e => ⟨f, l, by rw [e], Or.inl ⟨rfl, hbig ?_⟩⟩
      by_contra hlt
      have hle : st.capacity + 16 + st.capacity / 16 < cfg.sizeMax + 1 := by omega
      rw [Nat.mod_eq_of_lt hle] at h2
      omega
    · rw [if_neg h2, wpM_bind]
      have hlt : st.capacity + 16 + st.capacity / 16 < cfg.sizeMax + 1 := by
        by_contra hge
        apply h2
        right
        rw [Nat.mod_eq_sub_mod (by omega), Nat.mod_eq_of_lt (by omega)]
        omega
      rw [Nat.mod_eq_of_lt hlt]
      refine wpM_realloc L hl (by omega) (fun w' hn f l e => ?_) (fun i w' f l e => ?_)
      · refine wpM_fail fun w'' f' l' e' => ⟨f'.trans f, l'.trans l, by rw [e'], Or.inr (Or.inl ⟨rfl, hn⟩)⟩
      · dsimp only
        rw [wpM_pure]
        refine ⟨f, l, e, rfl, by dsimp only; omega, rfl, by dsimp only; omega, fun j x hx => ?_⟩
        have := Buf.lt_of_get hx
        dsimp only
        rw [Buf.get_resize, if_pos (by omega)]; exact hx
  · rw [if_neg h, wpM_pure]
    exact ⟨rfl, hl, rfl, rfl, by omega, hlen, hmax, fun _ _ => id⟩

theorem hiStep_spec {cfg : Cfg} (hcfg : cfg.Valid) {n : Nat} {dist : Nat → Nat → F} (hd : DistLaws n dist) {hi : HiEnv F} (hhi : hi.Ok) {spi : Spi F} {mayRefuse : Prop} (ok : MetricOk spi n dist mayRefuse)
    {ids : HiIds} {lids : List Nat} {S : Nat} (hS : 2 ≤ S) (hS32 : 2 * S < 2 ^ 32) (batch : Bool) {largest K T : Nat} {big : Prop} (hbig1 : cfg.sizeMax < 2 * K + 16 → big) (hbig2 : cfg.clabelMax < T → big)
    {orgs : List (List Nat)} {labels0 : Buf Int} (hroom : n ≤ labels0.len) {r : HiRun F} {e : HiEntry} {st done : List HiEntry} (h : HiInv cfg n S batch dist largest K T orgs labels0 r (e :: st) done)
    {w : World} {L : Multiset Nat} (hl : w.live = {r.stack.clusters.id} + L) (hids : ∀ i ∈ ids.all, i ∈ L) (hlids : ∀ i ∈ lids, i ∈ L) :
    WpM (hiStep cfg hi spi ids lids S batch r) w fun res w' => w'.fails = w.fails ∧ w'.live = {res.2.stack.clusters.id} + L ∧ KeptLabels labels0 res.2.labels ∧
      match res.1 with
      | some e => w'.err.code = e ∧ SysCause w big mayRefuse e
      | none => w'.err = w.err ∧ ∃ st' done', HiInv cfg n S batch dist largest K T orgs labels0 res.2 st' done' ∧ hiRounds st' < hiRounds (e :: st) := by
  unfold hiStep
  have hlen := length_le_rounds (e :: st)
  rw [wpM_bind]
  refine (checkCapacity_spec hcfg.size hl (by rw [h.items]; exact h.cap.1) h.cap.2.1 h.cap.2.2 (big := big) (fun hb => hbig1 (by rw [h.items] at hb; have := h.rounds; omega))).mono ?_
  rintro (ec | stack) w1 ⟨f1, h1⟩
  · dsimp only at h1 ⊢
    rw [wpM_pure]
    exact ⟨f1, h1.1.trans hl, h.room, h1.2.1, h1.2.2.imp rfl (fun x => x) (fun x => x.elim)⟩
  dsimp only at h1 ⊢
  obtain ⟨l1, e1, i1, c1, c2, c3, hcells⟩ := h1
  have hit : stack.items = st.length + 1 := by rw [i1, h.items]; rfl
  obtain ⟨off, s1, s2, s3, s4, s5⟩ := h.stk
  have hcell := h.cells st.length e (by rw [List.reverse_cons, List.getElem?_append_right (by simp)]; simp)
  have hmem1 : stack.clusters.id ∈ w1.live := by rw [l1]; simp
  have hmemL : ∀ i ∈ L, i ∈ w1.live := fun i hi => by rw [l1]; exact Multiset.mem_add.2 (Or.inr hi)
  rw [wpM_bind, wpM_useK]
  refine ⟨by simpa using hmem1, ?_⟩
  rw [hit, Nat.add_sub_cancel, wp_eq (hcells _ _ hcell)]
  have hu : u32 (2 * S) = 2 * S := Nat.mod_eq_of_lt hS32
  rw [hu]
  have hitem : e.item = ⟨e.pts.length, e.item.marker, some off⟩ := by
    rw [← s1, ← s2]
  obtain ⟨pn, pr, po, pp⟩ := h.pieces e (by simp)
  have hres : ∀ (i : Nat) (x : HiEntry), st.reverse[i]? = some x → stack.clusters.buf.get i = some x.item := fun i x hx => by
    refine hcells _ _ (h.cells i x ?_)
    rw [List.reverse_cons, List.getElem?_append_left (List.getElem?_eq_some_iff.1 hx).1]; exact hx
  have htot := h.total
  have hrounds := h.rounds
  by_cases hsmall : e.item.size < 2 * S
  · rw [if_pos hsmall]
    by_cases hpos : 0 < e.item.size
    · rw [if_pos hpos]
      by_cases hmax : r.next = cfg.clabelMax
      · rw [if_pos hmax, wpM_bind]
        refine wpM_mkErr fun w2 f2 l2 e2 => ?_
        rw [wpM_pure]
        refine ⟨f2.trans f1, l2.trans l1, h.room, by rw [e2], Or.inl ⟨rfl, hbig2 ?_⟩⟩
        have hdone : done.length ≤ (stackPts done).length := by
          have hs := h.small
          clear * - hs
          induction done with
          | nil => simp
          | cons x rest ih =>
            have h1 := (hs x (by simp)).1
            have h2 := ih fun e he => hs e (by simp [he])
            simp only [stackPts, List.flatMap_cons, List.length_append, List.length_cons] at h2 ⊢
            omega
        have : (stackPts (e :: st)).length = e.pts.length + (stackPts st).length := by simp [stackPts]
        have := h.next
        omega
      · rw [if_neg hmax, wpM_bind, wpM_useK]
        refine ⟨fun i hi => hmemL i ?_, ?_⟩
        · rcases List.mem_cons.1 hi with rfl | hi
          · exact hids _ (by simp [HiIds.all])
          · exact hlids i hi
        rw [hitem]
        refine (labelCluster_spec s3 (fun x hx => by rw [h.room.len]; have := pr x hx; omega)).mono ?_
        rintro l ⟨g1, g2⟩
        rw [wpM_pure]
        have hkept : KeptLabels labels0 l := ⟨g1.trans h.room.len, fun v x hx => by
          rw [g2 v]
          by_cases hv : v ∈ e.pts
          · rw [if_pos hv]; exact ⟨_, rfl⟩
          · rw [if_neg hv]; exact h.room.get v x hx⟩
        refine ⟨f1, l1, hkept, e1, st, done ++ [e], ?_, by simp only [hiRounds]; omega⟩
        exact {
          items := by dsimp only <;> omega
          cap := ⟨by dsimp only; omega, c2, c3⟩
          cells := hres
          stk := s5.mono (by omega)
          lens := h.lens
          rounds := by simp only [hiRounds] at hrounds; omega
          pieces := fun x hx => h.pieces x (by simp only [List.mem_append, List.mem_cons, List.not_mem_nil, or_false] at hx ⊢; tauto)
          big := fun x hx => h.big x (by simp [hx])
          disj := (List.pairwise_cons.1 h.disj).2
          next := by dsimp only; rw [h.next]; simp
          nextLe := by have := h.nextLe; dsimp only; omega
          small := by
            intro x hx
            rw [List.mem_append, List.mem_singleton] at hx
            rcases hx with hx | rfl
            · exact h.small x hx
            · omega
          total := by simp [stackPts] at htot ⊢; omega
          parts := by
            intro hs
            refine List.Perm.trans ?_ (h.parts hs)
            simp only [stackPts, List.flatMap_append, List.flatMap_cons, List.flatMap_nil, List.append_nil, List.append_assoc]
            exact List.Perm.refl _
          forest := by
            intro hs lss hl
            obtain ⟨oss, t1, t2⟩ := h.forest hs ([e.pts] :: lss) (.cons (.leaf (by rintro hn; rw [hn] at s2; simp at s2; omega) (by omega) (.refl _)) hl)
            exact ⟨oss, t1, by rw [t2]; simp⟩
          room := hkept
          labelled := by
            intro v j x hj hv hlast
            dsimp only
            rw [g2]
            by_cases hjl : j < done.length
            · rw [List.getElem?_append_left hjl] at hj
              have hne := hlast done.length e hjl (by simp)
              rw [if_neg hne]
              refine h.labelled v j x hj hv fun j' e' hjj he' => hlast j' e' hjj ?_
              rw [List.getElem?_append_left (List.getElem?_eq_some_iff.1 he').1]; exact he'
            · rw [List.getElem?_append_right (by omega)] at hj
              have h0 := (List.getElem?_eq_some_iff.1 hj).1
              simp at h0
              have hjd : j = done.length := by omega
              subst hjd
              simp at hj
              subst hj
              rw [if_pos hv, h.next]
          same := by
            intro v hv
            dsimp only
            rw [g2, if_neg (hv e (by simp))]
            exact h.same v fun x hx => hv x (by simp [hx]) }
    · rw [if_neg hpos, wpM_pure]
      have hnil : e.pts = [] := List.eq_nil_of_length_eq_zero (by omega)
      refine ⟨f1, l1, h.room, e1, st, done, ?_, by simp only [hiRounds]; omega⟩
      exact {
        items := by dsimp only <;> omega
        cap := ⟨by dsimp only; omega, c2, c3⟩
        cells := hres
        stk := s5.mono (by omega)
        lens := h.lens
        rounds := by simp only [hiRounds] at hrounds; omega
        pieces := fun x hx => h.pieces x (by simp only [List.mem_append, List.mem_cons] at hx ⊢; tauto)
        big := fun x hx => h.big x (by simp [hx])
        disj := (List.pairwise_cons.1 h.disj).2
        next := h.next
        nextLe := h.nextLe
        small := h.small
        total := by simp [stackPts, hnil] at htot ⊢; omega
        parts := by
          intro hs
          have := h.parts hs
          simpa [stackPts, hnil] using this
        forest := by
          intro hs lss hl
          obtain ⟨oss, t1, t2⟩ := h.forest hs ([] :: lss) (.cons (by rw [hnil]; exact .none) hl)
          exact ⟨oss, t1, by rw [t2]; simp⟩
        room := h.room
        labelled := h.labelled
        same := h.same }
  · rw [if_neg hsmall, wpM_bind]
    obtain ⟨b1, b2, b3⟩ := h.big e (by simp) (by omega)
    have hL := h.lens
    have hpre : BreakPre cfg n S e.pts off e.item.marker r.bufs :=
      ⟨pn, pr, s3, by rw [hL.store]; exact s4, b1, b2, by omega, hL.idx1, hL.idx2, ⟨by have := hL.dists; omega, hL.dists.2⟩, by have := hL.edges1; omega, by have := hL.edges2; omega⟩
    rw [hitem]
    refine (breakCluster_spec hcfg.fast16 hd hhi ok hS hS32 batch hpre (w := w1) (ids := ids) (fun i hi => hmemL i (hids i hi))).mono ?_
    rintro (ec | ⟨i1', i2', bufs⟩) w2 ⟨f2, l2, h2⟩
    · dsimp only at h2 ⊢
      rw [wpM_pure]
      refine ⟨f2.trans f1, l2.trans l1, h.room, h2.1, Or.inr (Or.inr ⟨h2.2.1, ?_⟩)⟩
      rw [← noFail_congr f1]; exact h2.2.2
    dsimp only at h2 ⊢
    obtain ⟨e2, x1, x2, A, B, hgood, hh, hp⟩ := h2
    obtain ⟨mk, m1, m2, m3, m4⟩ := hp.items
    dsimp only at m2 m3 m4
    subst m2 m3
    rw [wpM_bind, wpM_useK]
    refine ⟨by rw [l2]; simpa using hmem1, ?_⟩
    rw [wp_bind, Buf.wp_set]
    refine ⟨by omega, ?_⟩
    rw [Buf.wp_set]
    refine ⟨by show st.length + 1 < stack.clusters.buf.len; omega, ?_⟩
    rw [wpM_pure]
    have hsz1 := hh.size1
    have hsz2 := hh.size2
    have hszt := hh.total
    have hsize : 2 * S ≤ e.pts.length := by omega
    have hpc : ∀ Z : List Nat, Z ⊆ e.pts → S ≤ Z.length → Piece S e.org Z := by
      intro Z hZ hZl
      refine ⟨fun x hx => pp.1 (hZ hx), Or.inr ⟨?_, hZl⟩⟩
      rcases pp.2 with hq | hq
      · rw [← hq]; exact hsize
      · exact hq.1
    -- if both parts are large, the centers differ
    have hbig2' : 2 * S ≤ B.length → x1 ≠ x2 := by
      rintro hB rfl
      have := hh.tie fun x hx y hy => by
        have t1 := hgood.far1 x hx
        have t2 := hd.self x1 y (pr _ hgood.mem1) (pr _ hy)
        exact hd.order.trans _ _ _ t1 t2
      omega
    have hdis : 2 * S ≤ B.length → ∀ x ∈ B, x ∉ A := by
      intro hB x hxB hxA
      have hperm := hh.parts (hbig2' hB)
      have hnd := hperm.symm.nodup pn
      exact (List.nodup_append.1 hnd).2.2 x hxA x hxB rfl
    have hdj := List.pairwise_cons.1 h.disj
    refine ⟨f2.trans f1, l2.trans l1, h.room, e2.trans e1, ⟨⟨B.length, mk, some (off + A.length)⟩, B, e.org⟩ :: ⟨⟨A.length, mk, some off⟩, A, e.org⟩ :: st, done, ?_, ?_⟩
    · exact {
        items := by dsimp only <;> simp only [List.length_cons] <;> omega
        cap := ⟨by simp only [List.length_cons]; omega, c2, c3⟩
        cells := by
          intro i x hx
          simp only [List.reverse_cons, List.append_assoc, List.singleton_append] at hx
          dsimp only
          rcases Nat.lt_trichotomy i st.length with hlt | heq | hgt
          · rw [List.getElem?_append_left (by simpa using hlt)] at hx
            rw [Buf.get_upd_ne _ _ (by omega), Buf.get_upd_ne _ _ (by omega)]
            exact hres i x hx
          · subst heq
            rw [List.getElem?_append_right (by simp)] at hx
            simp at hx
            subst hx
            rw [Buf.get_upd_ne _ _ (by omega), Buf.get_upd_self _ _ (by omega)]
          · rw [List.getElem?_append_right (by simp; omega)] at hx
            have h0 := (List.getElem?_eq_some_iff.1 hx).1
            simp at h0
            have hi' : i = st.length + 1 := by omega
            subst hi'
            simp at hx
            subst hx
            rw [Buf.get_upd_self _ _ (by show st.length + 1 < stack.clusters.buf.len; omega)]
        stk := by
          refine ⟨off + A.length, rfl, rfl, hp.seg2, by dsimp only; omega, off, rfl, rfl, hp.seg1, le_rfl, s5.congr fun i hi => ?_⟩
          exact hp.outside i (Or.inl hi)
        lens := hL.same hp.lens
        rounds := by simp only [hiRounds] at hrounds ⊢; omega
        pieces := by
          intro x hx
          simp only [List.mem_append, List.mem_cons] at hx
          rcases hx with (rfl | rfl | hx) | hx
          · exact ⟨hh.nodup2, fun y hy => pr y (hh.sub2 hy), po, hpc _ hh.sub2 hsz2⟩
          · exact ⟨hh.nodup1, fun y hy => pr y (hh.sub1 hy), po, hpc _ hh.sub1 hsz1⟩
          · exact h.pieces x (by simp [hx])
          · exact h.pieces x (by simp [hx])
        big := by
          intro x hx hxl
          simp only [List.mem_cons] at hx
          rcases hx with rfl | rfl | hx
          · exact ⟨fun y hy => m4 y (List.mem_append.2 (Or.inr hy)), m1, by dsimp only; omega⟩
          · exact ⟨fun y hy => m4 y (List.mem_append.2 (Or.inl hy)), m1, by dsimp only; omega⟩
          · obtain ⟨g1, g2, g3⟩ := h.big x (by simp [hx]) hxl
            refine ⟨fun y hy => ?_, g2, g3⟩
            have hny : y ∉ e.pts := fun hye => hdj.1 x hx hsize hxl y hye hy
            show ∃ m, bufs.marks.get y = some m ∧ _
            rw [hp.moutside y hny]
            exact g1 y hy
        disj := by
          refine List.Pairwise.cons ?_ (List.Pairwise.cons ?_ hdj.2)
          · intro x hx hB hxl y hy
            rcases List.mem_cons.1 hx with rfl | hx
            · exact hdis hB y hy
            · exact hdj.1 x hx hsize hxl y (hh.sub2 hy)
          · intro x hx hA hxl y hy
            exact hdj.1 x hx hsize hxl y (hh.sub1 hy)
        next := h.next
        nextLe := h.nextLe
        small := h.small
        total := by simp [stackPts] at htot ⊢; omega
        parts := by
          intro hs
          refine List.Perm.trans ?_ (h.parts hs)
          have hne := good_ne (hs _ po) pn pp.1 hsize hgood
          have hperm := hh.parts hne
          simp only [stackPts, List.flatMap_cons]
          refine List.Perm.append_left _ ?_
          rw [← List.append_assoc]
          refine List.Perm.append_right _ ?_
          exact List.perm_append_comm.trans hperm
        forest := by
          intro hs lss hl
          have hne := good_ne (hs _ po) pn pp.1 hsize hgood
          obtain ⟨U, A0, B0, V, A1, B1, u1, u2, u3, u4, u5⟩ := hh.grown hne
          match lss, hl with
          | rs :: ls :: lss, .cons hB (.cons hA hl) =>
            obtain ⟨oss, t1, t2⟩ := h.forest hs ((rs ++ ls) :: lss) (.cons (.node hsize ⟨x1, x2, U, A0, B0, V, A1, B1, hgood, u1, u2, u3, u4, u5⟩ hA hB) hl)
            exact ⟨oss, t1, by rw [t2]; simp⟩
        room := h.room
        labelled := h.labelled
        same := h.same }
    · simp only [hiRounds]; omega

/-! ### The loop -/

theorem hiLoop_spec {cfg : Cfg} (hcfg : cfg.Valid) {n : Nat} {dist : Nat → Nat → F} (hd : DistLaws n dist) {hi : HiEnv F} (hhi : hi.Ok) {spi : Spi F} {mayRefuse : Prop} (ok : MetricOk spi n dist mayRefuse)
    {ids : HiIds} {lids : List Nat} {S : Nat} (hS : 2 ≤ S) (hS32 : 2 * S < 2 ^ 32) (batch : Bool) {largest K T : Nat} {big : Prop} (hbig1 : cfg.sizeMax < 2 * K + 16 → big) (hbig2 : cfg.clabelMax < T → big)
    {orgs : List (List Nat)} {labels0 : Buf Int} (hroom : n ≤ labels0.len) (fuel : Nat) {r : HiRun F} {st done : List HiEntry} (h : HiInv cfg n S batch dist largest K T orgs labels0 r st done) (hf : hiRounds st < fuel)
    {w : World} {L : Multiset Nat} (hl : w.live = {r.stack.clusters.id} + L) (hids : ∀ i ∈ ids.all, i ∈ L) (hlids : ∀ i ∈ lids, i ∈ L) :
    WpM (hiLoop cfg hi spi ids lids S batch fuel r) w fun res w' => w'.fails = w.fails ∧ w'.live = {res.2.stack.clusters.id} + L ∧ KeptLabels labels0 res.2.labels ∧
      (w'.err.code = res.1 ∧ SysCause w big mayRefuse res.1 ∨
       res.1 = .ok ∧ w'.err = w.err ∧ ∃ done', HiInv cfg n S batch dist largest K T orgs labels0 res.2 [] done') := by
  induction fuel generalizing r st done w with
  | zero => omega
  | succ fuel ih =>
    unfold hiLoop
    cases st with
    | nil =>
      rw [if_pos (show r.stack.items = 0 from h.items), wpM_pure]
      exact ⟨rfl, hl, h.room, Or.inr ⟨rfl, rfl, done, h⟩⟩
    | cons e st =>
      rw [if_neg (by rw [h.items]; simp), wpM_bind]
      refine (hiStep_spec hcfg hd hhi ok hS hS32 batch hbig1 hbig2 hroom h hl hids hlids).mono ?_
      rintro ⟨_ | ec, r'⟩ w1 ⟨f1, l1, len1, h1⟩
      · dsimp only at l1 len1 h1 ⊢
        obtain ⟨e1, st', done', h', hlt⟩ := h1
        refine (ih h' (by omega) l1).mono ?_
        rintro ⟨ec, r''⟩ w2 ⟨f2, l2, len2, h2⟩
        refine ⟨f2.trans f1, l2, len2, h2.imp ?_ ?_⟩
        · rintro ⟨a, b⟩
          exact ⟨a, b.imp f1 (fun x => x) (fun x => x)⟩
        · rintro ⟨a, b, c⟩
          exact ⟨a, b.trans e1, c⟩
      · dsimp only at l1 len1 h1 ⊢
        rw [wpM_pure]
        exact ⟨f1, l1, len1, Or.inl h1⟩

end Scc
