/-
Only comparisons of distances matter: `scc_hierarchical_clustering` with the built-in back end.
-/
import Verif.Proofs.CompareRun

namespace Scc

variable {F G : Type} [FloatOps F] [FloatOps G]

/-- The distance between two points, in both data sets. -/
def DistPair (ds : DataSet F) (ds' : DataSet G) (x : F) (y : G) : Prop := ∃ p q, p < ds.n ∧ q < ds.n ∧ x = ds.dist p q ∧ y = ds'.dist p q

section Sorting
variable {D : F → G → Prop}

theorem sortable_of {l : List (Nat × F)} {l' : List (Nat × G)} (hD : Alike D) (hl : ∀ b ∈ l', ∃ a ∈ l, EdgeAlike D a b) (h : Sortable l) : Sortable l' := by
  intro a' ha' b' hb'
  obtain ⟨a, ha, -, haa⟩ := hl a' ha'
  obtain ⟨b, hb, -, hbb⟩ := hl b' hb'
  obtain ⟨h1, h2⟩ := h a ha b hb
  rw [(hD _ _ _ _ haa hbb).1, (hD _ _ _ _ hbb haa).1] at h1
  refine ⟨h1, fun c' hc' => ?_⟩
  obtain ⟨c, hc, -, hcc⟩ := hl c' hc'
  have := h2 c hc
  rwa [(hD _ _ _ _ hbb haa).1, (hD _ _ _ _ hcc hbb).1, (hD _ _ _ _ hcc haa).1] at this

omit [FloatOps F] [FloatOps G] in
theorem forall₂_right {α β : Type} {R : α → β → Prop} {l : List α} {l' : List β} (h : List.Forall₂ R l l') : ∀ b ∈ l', ∃ a ∈ l, R a b := by
  induction h with
  | nil => nofun
  | cons h _ ih =>
    intro b hb
    rcases List.mem_cons.1 hb with rfl | hb
    · exact ⟨_, List.mem_cons_self, h⟩
    · obtain ⟨a, ha, hr⟩ := ih b hb
      exact ⟨a, List.mem_cons_of_mem _ ha, hr⟩

theorem alike_flip (hD : Alike D) : Alike fun y x => D x y := fun x y x' y' h1 h2 => ⟨(hD _ _ _ _ h1 h2).1.symm, (hD _ _ _ _ h1 h2).2.symm⟩

theorem sortList_rel {hi : HiEnv F} {hi' : HiEnv G} (he : SameEnv hi hi') (hD : Alike D) {l : List (Nat × F)} {l' : List (Nat × G)} (hl : List.Forall₂ (EdgeAlike D) l l') :
    Option.Rel (List.Forall₂ (EdgeAlike D)) (sortList hi l) (sortList hi' l') := by
  unfold sortList
  refine rel_ite ⟨sortable_of hD (forall₂_right hl), ?_⟩ (fun _ => .some (he.sort D l l' hD hl)) fun _ => .none
  refine sortable_of (alike_flip hD) fun a ha => ?_
  obtain ⟨b, hb, h1, h2⟩ := forall₂_right (List.Forall₂.flip hl) a ha
  exact ⟨b, hb, h1.symm, h2⟩

omit [FloatOps F] [FloatOps G] in
theorem forall₂_at {α β : Type} {R : α → β → Prop} {l : List α} {l' : List β} (h : List.Forall₂ R l l') (i : Nat) : Option.Rel R l[i]? l'[i]? := by
  induction h generalizing i with
  | nil => exact .none
  | cons h _ ih =>
    cases i with
    | zero => exact .some h
    | succ i => exact ih i

theorem sortEdges_rel {hi : HiEnv F} {hi' : HiEnv G} (he : SameEnv hi hi') (hD : Alike D) (store : Buf Nat) (off size center : Nat) {dists : Buf F} {dists' : Buf G} (hd : BufAlike D dists dists') (r : Nat)
    {edges : Buf (Nat × F)} {edges' : Buf (Nat × G)} (hed : BufAlike (EdgeAlike D) edges edges') :
    Option.Rel (fun a b => BufAlike (EdgeAlike D) a.1 b.1 ∧ a.2 = b.2) (sortEdges hi store off size center dists r edges) (sortEdges hi' store off size center dists' r edges') := by
  unfold sortEdges
  refine rel_bind (R := fun a b => BufAlike (EdgeAlike D) a.1 b.1 ∧ a.2 = b.2) (rel_forLt ⟨hed, rfl⟩ fun i ⟨a, w⟩ ⟨b, w'⟩ ⟨h1, h2⟩ => ?_) fun ⟨a, w⟩ ⟨b, w'⟩ ⟨h1, h2⟩ => ?_
  · dsimp only at h1 h2
    subst h2
    refine rel_next fun x => rel_ite Iff.rfl (fun _ => .some ⟨h1, rfl⟩) fun _ => ?_
    refine rel_bind (hd.get _) fun d d' hdd => rel_bind (h1.set (x := (x, d)) (y := (x, d')) ⟨rfl, hdd⟩ _) fun e e' hee => .some ⟨hee, rfl⟩
  · dsimp only at h1 h2
    subst h2
    refine rel_bind ((h1.drop 1).read _) fun l l' hl => rel_bind (sortList_rel he hD hl) fun s s' hs => ?_
    refine rel_bind (R := BufAlike (EdgeAlike D)) (rel_forLt h1 fun i a b hab => rel_bind (forall₂_at hs i) fun e e' hee => hab.set hee _) fun e e' hee => ?_
    rw [hee.len]
    refine rel_next fun next => rel_next fun next => .some ⟨hee, rfl⟩

omit [FloatOps F] [FloatOps G] in
theorem nextDist_rel {e : Buf (Nat × F)} {e' : Buf (Nat × G)} (he : BufAlike (EdgeAlike D) e e') (marks : Buf Nat) (marker prev fuel : Nat) (next : Buf (Option Nat)) :
    nextDist e marks marker prev fuel next = nextDist e' marks marker prev fuel next := by
  induction fuel generalizing next with
  | zero => rfl
  | succ fuel ih =>
    unfold nextDist
    refine rel_eq (rel_next fun p => rel_next fun p => rel_bind (he.get p) fun x y hxy => ?_)
    rw [hxy.1]
    refine rel_next fun m => rel_ite Iff.rfl (fun _ => rel_next fun q => rel_next fun next => ?_) fun _ => rel_refl
    rw [ih]
    exact rel_refl

omit [FloatOps F] [FloatOps G] in
theorem nextKnn_rel {e : Buf (Nat × F)} {e' : Buf (Nat × G)} (he : BufAlike (EdgeAlike D) e e') (marks : Buf Nat) (marker prev k : Nat) (next : Buf (Option Nat)) (out : Buf Nat) :
    nextKnn e marks marker prev k next out = nextKnn e' marks marker prev k next out := by
  unfold nextKnn
  refine rel_eq (rel_forLt rfl fun i a b hab => ?_)
  subst hab
  obtain ⟨prev, next, out⟩ := a
  dsimp only
  rw [nextDist_rel he, he.len]
  refine rel_next fun p => rel_bind (he.get _) fun x y hxy => ?_
  rw [hxy.1]
  exact rel_refl

omit [FloatOps F] [FloatOps G] in
theorem knn1of_rel {e : Buf (Nat × F)} {e' : Buf (Nat × G)} (he : BufAlike (EdgeAlike D) e e') (marker k : Nat) (s : HiSplit) : s.knn1of e marker k = s.knn1of e' marker k := by
  unfold HiSplit.knn1of
  rw [nextKnn_rel he]

omit [FloatOps F] [FloatOps G] in
theorem knn2of_rel {e : Buf (Nat × F)} {e' : Buf (Nat × G)} (he : BufAlike (EdgeAlike D) e e') (marker k : Nat) (s : HiSplit) : s.knn2of e marker k = s.knn2of e' marker k := by
  unfold HiSplit.knn2of
  rw [nextKnn_rel he]

section
variable {e1 e2 : Buf (Nat × F)} {e1' e2' : Buf (Nat × G)} (hD : Alike D) (h1 : BufAlike (EdgeAlike D) e1 e1') (h2 : BufAlike (EdgeAlike D) e2 e2')
include hD h1 h2

theorem splitFirst_rel (S marker : Nat) (s : HiSplit) : splitFirst e1 e2 S marker s = splitFirst e1' e2' S marker s := by
  unfold splitFirst
  simp only [knn1of_rel h1, knn2of_rel h2]
  refine rel_eq (rel_next fun a => rel_next fun b => rel_bind (h1.get _) fun x x' hx => rel_bind (h2.get _) fun y y' hy => ?_)
  rw [(hD _ _ _ _ hy.2 hx.2).2]
  exact rel_refl

theorem splitBatch_rel (marker k : Nat) (s : HiSplit) : splitBatch e1 e2 marker k s = splitBatch e1' e2' marker k s := by
  unfold splitBatch
  simp only [knn1of_rel h1, knn2of_rel h2]
  refine rel_eq (rel_next fun a => rel_next fun b => rel_bind (h1.get _) fun x x' hx => rel_bind (h2.get _) fun y y' hy => ?_)
  rw [(hD _ _ _ _ hx.2 hy.2).2]
  exact rel_refl

theorem splitBatches_rel (marker fuel left k : Nat) (s : HiSplit) : splitBatches e1 e2 marker fuel left k s = splitBatches e1' e2' marker fuel left k s := by
  induction fuel generalizing left k s with
  | zero => rfl
  | succ fuel ih =>
    unfold splitBatches
    simp only [splitBatch_rel hD h1 h2, ih]

theorem splitSingle_rel (marker : Nat) (s : HiSplit) : splitSingle e1 e2 marker s = splitSingle e1' e2' marker s := by
  unfold splitSingle
  rw [h1.len, h2.len]
  simp only [nextDist_rel h1, nextDist_rel h2]
  refine rel_eq (rel_next fun a => rel_next fun b => rel_bind (h1.get _) fun x x' hx => rel_bind (h2.get _) fun y y' hy => ?_)
  rw [(hD _ _ _ _ hx.2 hy.2).2, hx.1, hy.1]
  exact rel_refl

theorem splitRest_rel (S marker left : Nat) (batch : Bool) (s : HiSplit) : splitRest e1 e2 S marker left batch s = splitRest e1' e2' S marker left batch s := by
  unfold splitRest
  simp only [splitBatches_rel hD h1 h2, splitSingle_rel hD h1 h2]

end

/-- The same arrays of points, and arrays of distances that belong together. -/
structure BufsAlike (D : F → G → Prop) (b : HiBufs F) (b' : HiBufs G) : Prop where
  store : b.store = b'.store
  idx1 : b.idx1 = b'.idx1
  idx2 : b.idx2 = b'.idx2
  dists : BufAlike D b.dists b'.dists
  marks : b.marks = b'.marks
  edges1 : BufAlike (EdgeAlike D) b.edges1 b'.edges1
  edges2 : BufAlike (EdgeAlike D) b.edges2 b'.edges2

theorem splitCluster_rel {hi : HiEnv F} {hi' : HiEnv G} (he : SameEnv hi hi') (hD : Alike D) (cfg : Cfg) (S : Nat) (batch : Bool) (c : HiItem) (center1 center2 : Nat) {b : HiBufs F} {b' : HiBufs G}
    (hb : BufsAlike D b b') : Option.Rel (fun a b => a.1 = b.1 ∧ a.2.1 = b.2.1 ∧ BufsAlike D a.2.2 b.2.2) (splitCluster cfg hi S batch c center1 center2 b) (splitCluster cfg hi' S batch c center1 center2 b') := by
  unfold splitCluster
  rw [← hb.store, ← hb.marks, ← hb.idx1, ← hb.idx2]
  refine rel_next fun off => rel_bind (sortEdges_rel he hD _ _ _ _ hb.dists _ hb.edges1) fun ⟨a, n⟩ ⟨a', n'⟩ ⟨g1, g2⟩ => rel_bind (sortEdges_rel he hD _ _ _ _ hb.dists _ hb.edges2) fun ⟨b, m⟩ ⟨b', m'⟩ ⟨g3, g4⟩ => ?_
  dsimp only at g1 g2 g3 g4
  subst g2 g4
  refine rel_next fun p => rel_next fun parts => rel_next fun parts => ?_
  rw [splitFirst_rel hD g1 g3]
  refine rel_next fun s => ?_
  rw [splitRest_rel hD g1 g3]
  exact rel_next fun s => .some ⟨rfl, rfl, rfl, rfl, rfl, hb.dists, rfl, g1, g3⟩

end Sorting

section Data
variable {ds : DataSet F} {ds' : DataSet G} (h : SameFar ds ds')
include h

theorem distPair_alike : Alike (DistPair ds ds') := by
  rintro _ _ _ _ ⟨p, q, hp, hq, rfl, rfl⟩ ⟨r, s, hr, hs, rfl, rfl⟩
  exact h.far p q r s hp hq hr hs

theorem maxRow_rel (len : Nat) (hlen : 0 < len) (search queries : Option Arr) (q : Nat) (outI : Buf Nat) :
    Option.Rel (fun a b => a.1 = b.1 ∧ DistPair ds ds' (FloatOps.sqrt a.2) (FloatOps.sqrt b.2))
      (forLt 0 len (outI, (FloatOps.negOne : F)) fun s (outI, m) => do
        let i ← idxGet queries q
        let j ← idxGet search s
        let d ← sqDist ds i j
        if FloatOps.lt m d then do
          let outI ← outI.set q j
          pure (outI, d)
        else pure (outI, m))
      (forLt 0 len (outI, (FloatOps.negOne : G)) fun s (outI, m) => do
        let i ← idxGet queries q
        let j ← idxGet search s
        let d ← sqDist ds' i j
        if FloatOps.lt m d then do
          let outI ← outI.set q j
          pure (outI, d)
        else pure (outI, m)) := by
  obtain ⟨k, rfl⟩ : ∃ k, len = k + 1 := ⟨len - 1, by omega⟩
  unfold forLt
  rw [Nat.sub_zero, List.range'_succ, List.foldlM_cons, List.foldlM_cons]
  cases hi : idxGet queries q with
  | none => exact .none
  | some i =>
    dsimp only [Option.bind_eq_bind, Option.bind_some]
    refine rel_bind (R := fun a b => a.1 = b.1 ∧ i < ds.n ∧ RowPair ds ds' i a.2 b.2) ?_ fun a b hab => ?_
    · refine rel_next fun j => rel_bind (sqDist_rel h.exact h.exact' h.num i j) fun x y hx => ?_
      obtain ⟨h1, h2, rfl, rfl⟩ := hx
      rw [if_pos (h.positive i j h1 h2).1, if_pos (h.positive i j h1 h2).2]
      exact rel_next fun o => .some ⟨rfl, h1, j, h2, rfl, rfl⟩
    · refine rel_mono (rel_foldlM (R := fun a b => a.1 = b.1 ∧ i < ds.n ∧ RowPair ds ds' i a.2 b.2) _ ?_ hab) ?_
      · rintro ⟨a, m⟩ ⟨b, m'⟩ s ⟨h1, h2, h3⟩
        dsimp only at h1 h2 h3
        subst h1
        refine rel_next fun j => rel_bind (row_rel h.toSameNear i j) fun x y hx => ?_
        rw [(rowPair_alike h.toSameNear h2 _ _ _ _ h3 hx.2).1]
        exact rel_ite Iff.rfl (fun _ => rel_next fun o => .some ⟨rfl, hx⟩) fun _ => .some ⟨rfl, h2, h3⟩
      · rintro ⟨a, m⟩ ⟨b, m'⟩ ⟨h1, h2, j, h3, h4, h5⟩
        exact ⟨h1, i, j, h2, h3, by dsimp only at h4; rw [h4]; rfl, by dsimp only at h5; rw [h5]; rfl⟩

theorem maxDistK_rel (len : Nat) (hlen : 0 < len) (search : Option Arr) (lenQ : Nat) (queries : Option Arr) (outI : Buf Nat) {out : Buf F} {out' : Buf G} (ho : BufAlike (DistPair ds ds') out out') :
    Option.Rel (fun a b => a.1 = b.1 ∧ BufAlike (DistPair ds ds') a.2 b.2) (maxDistK ds len search lenQ queries outI out) (maxDistK ds' len search lenQ queries outI out') := by
  unfold maxDistK
  refine rel_forLt ⟨rfl, ho⟩ fun q ⟨a, d⟩ ⟨b, d'⟩ ⟨h1, h2⟩ => ?_
  dsimp only at h1 h2
  subst h1
  refine rel_bind (maxRow_rel h len hlen search queries q a) fun ⟨o, m⟩ ⟨o', m'⟩ ⟨g1, g2⟩ => ?_
  dsimp only at g1 g2
  subst g1
  exact rel_bind (h2.set g2 q) fun e e' hee => .some ⟨rfl, hee⟩

/-- The states of the search for centers belong together. -/
structure CentersAlike (ds : DataSet F) (ds' : DataSet G) (a : CenterSt F) (b : CenterSt G) : Prop where
  toCheck : a.toCheck = b.toCheck
  marks : a.marks = b.marks
  count : a.count = b.count
  maxDist : a.maxDist = FloatOps.negOne ∧ b.maxDist = FloatOps.negOne ∨ DistPair ds ds' a.maxDist b.maxDist
  center1 : a.center1 = b.center1
  center2 : a.center2 = b.center2

theorem centerMax_rel (maxI : Buf Nat) {d : Buf F} {d' : Buf G} (hd : BufAlike (DistPair ds ds') d d') (i : Nat) {a : CenterSt F} {b : CenterSt G} (hab : CentersAlike ds ds' a b) :
    Option.Rel (CentersAlike ds ds') (centerMax maxI d i a) (centerMax maxI d' i b) := by
  unfold centerMax
  refine rel_bind (hd.get i) fun x y hxy => ?_
  have key : FloatOps.lt a.maxDist x = FloatOps.lt b.maxDist y := by
    rcases hab.maxDist with ⟨e1, e2⟩ | hm
    · rw [e1, e2]
      obtain ⟨p, q, hp, hq, rfl, rfl⟩ := hxy
      exact h.start p q hp hq
    · exact (distPair_alike h _ _ _ _ hm hxy).1
  rw [key, ← hab.toCheck]
  refine rel_ite Iff.rfl (fun _ => rel_next fun p => rel_next fun q => .some ?_) fun _ => .some hab
  exact ⟨rfl, hab.marks, hab.count, Or.inr hxy, rfl, rfl⟩

theorem centerStep_rel (marker : Nat) (maxI : Buf Nat) {d : Buf F} {d' : Buf G} (hd : BufAlike (DistPair ds ds') d d') (i : Nat) {a : CenterSt F} {b : CenterSt G} (hab : CentersAlike ds ds' a b) :
    Option.Rel (CentersAlike ds ds') (centerStep marker maxI d i a) (centerStep marker maxI d' i b) := by
  unfold centerStep
  refine rel_bind (centerMax_rel h maxI hd i hab) fun a b hab => rel_next fun y => ?_
  rw [← hab.marks, ← hab.toCheck, ← hab.count]
  refine rel_next fun m => rel_ite Iff.rfl (fun _ => rel_next fun mk => rel_next fun tc => .some ?_) fun _ => .some hab
  exact ⟨rfl, rfl, rfl, hab.maxDist, hab.center1, hab.center2⟩

theorem maxDist_sim (o : SearchObj) (hlen : 0 < o.len) (lenQ : Nat) (queries : Option Arr) (outI : Buf Nat) {out : Buf F} {out' : Buf G} (ho : BufAlike (DistPair ds ds') out out') :
    Sim (Option.Rel fun a b => a.1 = b.1 ∧ BufAlike (DistPair ds ds') a.2 b.2) ((builtinSpi (some ds)).maxDist o lenQ queries outI out) ((builtinSpi (some ds')).maxDist o lenQ queries outI out') := by
  show Sim _ (useK _ (maxDistK ds _ _ _ _ _ _) >>= _) (useK _ (maxDistK ds' _ _ _ _ _ _) >>= _)
  exact sim_bind (sim_useK _ (maxDistK_rel h o.len hlen _ _ _ _ ho)) fun a b hab => sim_pure (.some hab)

theorem centerLoop_sim (ids : HiIds) (o : SearchObj) (hlen : 0 < o.len) (marker fuel : Nat) {a : CenterSt F} {b : CenterSt G} (hab : CentersAlike ds ds' a b) (maxI : Buf Nat) {d : Buf F} {d' : Buf G}
    (hd : BufAlike (DistPair ds ds') d d') :
    Sim (OutAlike fun a b => CentersAlike ds ds' a.1 b.1 ∧ a.2.1 = b.2.1 ∧ BufAlike (DistPair ds ds') a.2.2 b.2.2) (centerLoop (builtinSpi (some ds)) ids o marker fuel a maxI d)
      (centerLoop (builtinSpi (some ds')) ids o marker fuel b maxI d') := by
  induction fuel generalizing a b maxI d d' with
  | zero => exact fun _ => .none
  | succ fuel ih =>
    rw [centerLoop.eq_def (builtinSpi (some ds)) ids o, centerLoop.eq_def (builtinSpi (some ds')) ids o]
    dsimp only
    rw [← hab.count, ← hab.toCheck]
    by_cases hc : a.count = 0
    · rw [if_pos hc, if_pos hc]
      exact sim_pure (.ok ⟨hab, rfl, hd⟩)
    rw [if_neg hc, if_neg hc]
    refine sim_next fun _ => sim_bind (maxDist_sim h o hlen _ _ _ hd) fun r r' hr => ?_
    cases hr with
    | none => exact sim_next (x := searchClose o) fun _ => sim_fail _ _ _ _
    | some hr =>
      rename_i r r'
      obtain ⟨r1, r2⟩ := r
      obtain ⟨r1', r2'⟩ := r'
      obtain ⟨h1, h2⟩ := hr
      dsimp only at h1 h2
      subst h1
      refine sim_bind (sim_useK (R := CentersAlike ds ds') _ (rel_forLt ?_ fun i a b hab => centerStep_rel h marker _ h2 i hab)) fun a b hab => ih hab _ h2
      exact ⟨rfl, hab.marks, rfl, hab.maxDist, hab.center1, hab.center2⟩

omit [FloatOps F] [FloatOps G] h in
theorem searchInit_sim (len : Nat) (search : Option Arr) : Sim (Option.Rel fun a b => a = b ∧ a.len = len) (searchInit len search) (searchInit len search) := by
  unfold searchInit
  refine sim_next fun b => ?_
  cases b with
  | none => exact sim_pure .none
  | some b => exact sim_pure (.some ⟨rfl, rfl⟩)

omit [FloatOps F] [FloatOps G] h in
theorem nextMarker_size (cfg : Cfg) (store : Buf Nat) (c : HiItem) (marks : Buf Nat) :
    Option.Rel (fun a b => a = b ∧ a.1.size = c.size) (nextMarker cfg store c marks) (nextMarker cfg store c marks) := by
  unfold nextMarker
  exact rel_ite Iff.rfl (fun _ => rel_next fun off => rel_next fun m => .some ⟨rfl, rfl⟩) fun _ => .some ⟨rfl, rfl⟩

theorem findCenters_sim (cfg : Cfg) (ids : HiIds) (c : HiItem) (hc : 0 < c.size) {b : HiBufs F} {b' : HiBufs G} (hb : BufsAlike (DistPair ds ds') b b') :
    Sim (OutAlike fun a b => a.1 = b.1 ∧ BufsAlike (DistPair ds ds') a.2.1 b.2.1 ∧ a.2.2 = b.2.2) (findCenters cfg (builtinSpi (some ds)) ids c b) (findCenters cfg (builtinSpi (some ds')) ids c b') := by
  unfold findCenters
  rw [← hb.store, ← hb.marks, ← hb.idx1, ← hb.idx2]
  refine sim_bind (R := fun a b => a = b ∧ a.1.size = c.size) (sim_useK _ (rel_bind (nextMarker_size cfg b.store c b.marks) ?_)) ?_
  · rintro ⟨c1, m⟩ _ ⟨rfl, hs⟩
    exact rel_next fun off => rel_next fun p => .some ⟨rfl, hs⟩
  · rintro ⟨c1, off, tc, mk⟩ _ ⟨rfl, hs⟩
    dsimp only at hs ⊢
    refine sim_bind (R := Option.Rel fun (a b : SearchObj) => a = b ∧ a.len = c1.size) (searchInit_sim _ _) fun o o' ho => ?_
    cases ho with
    | none => exact sim_fail _ _ _ _
    | some ho =>
      rename_i o o'
      obtain ⟨rfl, hlen⟩ := ho
      dsimp only
      refine sim_bind (centerLoop_sim h ids o (by omega) _ _ ?_ _ hb.dists) fun r r' hr => ?_
      · exact ⟨rfl, rfl, rfl, Or.inl ⟨rfl, rfl⟩, rfl, rfl⟩
      · cases hr with
        | error e => exact sim_pure (.error e)
        | ok hr =>
          rename_i r r'
          obtain ⟨st, mI, mD⟩ := r
          obtain ⟨st', mI', mD'⟩ := r'
          obtain ⟨h1, h2, h3⟩ := hr
          dsimp only at h1 h2 h3
          subst h2
          refine sim_next (x := searchClose o) fun ok => ?_
          cases ok with
          | false => exact sim_fail _ _ _ _
          | true =>
            refine sim_pure (.ok ⟨rfl, ⟨rfl, h1.toCheck, rfl, h3, h1.marks, hb.edges1, hb.edges2⟩, ?_⟩)
            dsimp only
            rw [h1.center1, h1.center2]

section
variable {hi : HiEnv F} {hi' : HiEnv G} (he : SameEnv hi hi')
include he

theorem breakCluster_sim (cfg : Cfg) (ids : HiIds) (S : Nat) (batch : Bool) (c : HiItem) (hc : 0 < c.size) {b : HiBufs F} {b' : HiBufs G} (hb : BufsAlike (DistPair ds ds') b b') :
    Sim (OutAlike fun a b => a.1 = b.1 ∧ a.2.1 = b.2.1 ∧ BufsAlike (DistPair ds ds') a.2.2 b.2.2) (breakCluster cfg hi (builtinSpi (some ds)) ids S batch c b)
      (breakCluster cfg hi' (builtinSpi (some ds')) ids S batch c b') := by
  unfold breakCluster
  refine sim_bind (findCenters_sim h cfg ids c hc hb) fun r r' hr => ?_
  cases hr with
  | error e => exact sim_pure (.error e)
  | ok hr =>
    rename_i r r'
    obtain ⟨c1, b, x, y⟩ := r
    obtain ⟨c1', b', x', y'⟩ := r'
    obtain ⟨h1, h2, h3⟩ := hr
    dsimp only at h1 h2 h3
    subst h1
    cases h3
    refine sim_next fun off => sim_next fun _ => ?_
    rw [← h2.store]
    refine sim_bind (distRows_sim h.toSameNear (T := DistPair ds ds') (fun p q hp hq => ⟨p, q, hp, hq, rfl, rfl⟩) _ _ _ _ h2.dists) fun d d' hd => ?_
    cases hd with
    | none => exact sim_fail _ _ _ _
    | some hd =>
      refine sim_bind (sim_useK _ (splitCluster_rel he (distPair_alike h) cfg S batch c1 x y ?_)) fun r r' hr => sim_pure (.ok hr)
      exact ⟨rfl, h2.idx1, h2.idx2, hd, h2.marks, h2.edges1, h2.edges2⟩

/-- The states of the main loop belong together. -/
structure RunsAlike (ds : DataSet F) (ds' : DataSet G) (a : HiRun F) (b : HiRun G) : Prop where
  stack : a.stack = b.stack
  bufs : BufsAlike (DistPair ds ds') a.bufs b.bufs
  labels : a.labels = b.labels
  next : a.next = b.next

theorem hiStep_sim (cfg : Cfg) (ids : HiIds) (lids : List Nat) (S : Nat) (hS : 0 < u32 (2 * S)) (batch : Bool) {a : HiRun F} {b : HiRun G} (hab : RunsAlike ds ds' a b) :
    Sim (fun x y => x.1 = y.1 ∧ RunsAlike ds ds' x.2 y.2) (hiStep cfg hi (builtinSpi (some ds)) ids lids S batch a) (hiStep cfg hi' (builtinSpi (some ds')) ids lids S batch b) := by
  unfold hiStep
  rw [← hab.stack, ← hab.labels, ← hab.next]
  refine sim_next fun st => ?_
  cases st with
  | error e => exact sim_pure ⟨rfl, hab⟩
  | ok stack =>
    dsimp only
    rw [← hab.bufs.store]
    refine sim_next fun c => ?_
    by_cases h1 : c.size < u32 (2 * S)
    · rw [if_pos h1, if_pos h1]
      by_cases h2 : 0 < c.size
      · rw [if_pos h2, if_pos h2]
        by_cases h3 : a.next = cfg.clabelMax
        · rw [if_pos h3, if_pos h3]
          exact sim_next fun e => sim_pure ⟨rfl, rfl, hab.bufs, rfl, rfl⟩
        · rw [if_neg h3, if_neg h3]
          exact sim_next fun l => sim_pure ⟨rfl, rfl, hab.bufs, rfl, rfl⟩
      · rw [if_neg h2, if_neg h2]
        exact sim_pure ⟨rfl, rfl, hab.bufs, rfl, rfl⟩
    · rw [if_neg h1, if_neg h1]
      refine sim_bind (breakCluster_sim h he cfg ids S batch c (by omega) hab.bufs) fun r r' hr => ?_
      cases hr with
      | error e => exact sim_pure ⟨rfl, rfl, hab.bufs, rfl, rfl⟩
      | ok hr =>
        rename_i r r'
        obtain ⟨c1, c2, b⟩ := r
        obtain ⟨c1', c2', b'⟩ := r'
        obtain ⟨h1, h2, h3⟩ := hr
        dsimp only at h1 h2 h3
        subst h1 h2
        exact sim_next fun cl => sim_pure ⟨rfl, rfl, h3, rfl, rfl⟩

theorem hiLoop_sim (cfg : Cfg) (ids : HiIds) (lids : List Nat) (S : Nat) (hS : 0 < u32 (2 * S)) (batch : Bool) (fuel : Nat) {a : HiRun F} {b : HiRun G} (hab : RunsAlike ds ds' a b) :
    Sim (fun x y => x.1 = y.1 ∧ RunsAlike ds ds' x.2 y.2) (hiLoop cfg hi (builtinSpi (some ds)) ids lids S batch fuel a) (hiLoop cfg hi' (builtinSpi (some ds')) ids lids S batch fuel b) := by
  induction fuel generalizing a b with
  | zero => exact fun _ => .none
  | succ fuel ih =>
    unfold hiLoop
    rw [← hab.stack]
    by_cases h1 : a.stack.items = 0
    · rw [if_pos h1, if_pos h1]
      exact sim_pure ⟨rfl, hab⟩
    · rw [if_neg h1, if_neg h1]
      refine sim_bind (hiStep_sim h he cfg ids lids S hS batch hab) fun ⟨e, r⟩ ⟨e', r'⟩ ⟨g1, g2⟩ => ?_
      dsimp only at g1 g2
      subst g1
      cases e with
      | some e => exact sim_pure ⟨rfl, g2⟩
      | none => exact ih g2

theorem hiWork_sim (cfg : Cfg) (S : Nat) (hS : 0 < u32 (2 * S)) (batch : Bool) (cl : Clustering) (stack : HiStack) (store : Blk Nat) (i1 i2 m : Option (Blk Nat)) {d : Option (Blk F)} {d' : Option (Blk G)}
    (hd : Option.Rel (BlocksAlike (DistPair ds ds')) d d') {e1 e2 : Option (Blk (Nat × F))} {e1' e2' : Option (Blk (Nat × G))} (h1 : Option.Rel (BlocksAlike (EdgeAlike (DistPair ds ds'))) e1 e1')
    (h2 : Option.Rel (BlocksAlike (EdgeAlike (DistPair ds ds'))) e2 e2') :
    Sim Eq (hiWork cfg hi (builtinSpi (some ds)) S batch cl stack store i1 i2 d m e1 e2) (hiWork cfg hi' (builtinSpi (some ds')) S batch cl stack store i1 i2 d' m e1' e2') := by
  cases i1 with
  | none => exact sim_refl
  | some i1 =>
    cases i2 with
    | none => exact sim_refl
    | some i2 =>
      cases m with
      | none =>
        cases hd with
        | none => exact sim_refl
        | some hd => exact sim_refl
      | some m =>
        cases hd with
        | none => exact sim_refl
        | some hd =>
          cases h1 with
          | none => exact sim_refl
          | some h1 =>
            cases h2 with
            | none => exact sim_refl
            | some h2 =>
              unfold hiWork
              dsimp only
              rw [← hd.id, ← h1.id, ← h2.id]
              refine sim_bind (hiLoop_sim h he cfg _ _ S hS batch _ ?_) fun ⟨ec, r⟩ ⟨ec', r'⟩ ⟨g1, g2⟩ => ?_
              · exact ⟨rfl, ⟨rfl, rfl, rfl, hd.buf, rfl, h1.buf, h2.buf⟩, rfl, rfl⟩
              · dsimp only at g1 g2
                subst g1
                rw [g2.labels, g2.next, g2.stack]
                exact sim_refl

omit [FloatOps F] [FloatOps G] h he in
theorem freePtr_sim {α β : Type} {R : α → β → Prop} {p : Option (Blk α)} {q : Option (Blk β)} (hp : Option.Rel (BlocksAlike R) p q) : Sim Eq (freePtr p) (freePtr q) := by
  cases hp with
  | none => exact sim_refl
  | some hp =>
    unfold freePtr
    dsimp only
    rw [hp.id]
    exact sim_refl

theorem hiMain_sim (cfg : Cfg) (S : Nat) (hS : 0 < u32 (2 * S)) (batch : Bool) (cl : Clustering) (stack : HiStack) (store : Blk Nat) (largest : Nat) :
    Sim Eq (hiMain cfg hi (builtinSpi (some ds)) S batch cl stack store largest) (hiMain cfg hi' (builtinSpi (some ds')) S batch cl stack store largest) := by
  unfold hiMain
  refine sim_next fun i1 => sim_next fun i2 => sim_bind (sim_alloc (bufAlike_raw _) _) fun d d' hd => sim_next fun m => sim_bind (sim_alloc (bufAlike_raw _) _) fun e1 e1' h1 =>
    sim_bind (sim_alloc (bufAlike_raw _) _) fun e2 e2' h2 => sim_bind (hiWork_sim h he cfg S hS batch cl stack store i1 i2 m hd h1 h2) fun r r' hr => ?_
  subst hr
  refine sim_next fun _ => sim_next fun _ => sim_bind (freePtr_sim hd) fun _ _ _ => sim_next fun _ => sim_bind (freePtr_sim h1) fun _ _ _ => sim_bind (freePtr_sim h2) fun _ _ _ => sim_refl

/-- The same call on the two data sets. -/
theorem hierarchical_same (cfg : Cfg) (S : Nat) (hS : 0 < u32 (2 * S)) (batch : Bool) (p : Option ClObj) :
    hierarchical cfg hi (builtinSpi (some ds)) S batch p = hierarchical cfg hi' (builtinSpi (some ds')) S batch p := by
  have e1 : (builtinSpi (some ds)).valid = (builtinSpi (some ds')).valid := by
    show (some ds).any DataSet.isInitialized = (some ds').any DataSet.isInitialized
    exact h.exact.init.trans h.exact'.init.symm
  have e2 : (builtinSpi (some ds)).numPoints = (builtinSpi (some ds')).numPoints := h.num
  have e3 : ∀ cl, hiArgsError (builtinSpi (some ds)) cl S = hiArgsError (builtinSpi (some ds')) cl S := by
    intro cl
    unfold hiArgsError
    rw [e1, e2]
  unfold hierarchical
  refine next_same fun ok => ?_
  cases ok with
  | false => cases p <;> rfl
  | true =>
    cases p with
    | none => rfl
    | some ob =>
      dsimp only
      rw [e3]
      cases hiArgsError (builtinSpi (some ds')) ob.cl S with
      | some e => rfl
      | none =>
        dsimp only
        refine bind_same ?_ fun _ => rfl
        unfold hiCluster
        refine next_same fun p => ?_
        dsimp only
        by_cases hb : (!p.1) = true
        · rw [if_pos hb, if_pos hb]
        · rw [if_neg hb, if_neg hb]
          have hs : makeStack cfg hi p.2 = makeStack cfg hi' p.2 := by
            unfold makeStack emptyStack initStack
            rw [he.cap]
          rw [hs]
          refine next_same fun s => ?_
          cases s with
          | error e => rfl
          | ok s => exact sim_eq (hiMain_sim h he cfg S hS batch _ _ _ _)

end
end Data
end Scc
