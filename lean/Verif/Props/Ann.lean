/-
C58: with the ANN back end the results are as documented. C59: the ANN back end returns its memory.
-/
import Verif.Proofs.Ann
import Verif.Proofs.AnnAlike
import Verif.Proofs.HiBuiltin
import Verif.Props.Clustering
import Verif.Props.Failures
import Verif.Props.Repeat

set_option linter.unusedVariables false

namespace Scc

variable {F : Type} [FloatOps F]

/-! ### A library that works as documented -/

/-- Positions in `set`. -/
def positions (set l : List Nat) : List Nat := l.map fun x => set.idxOf x

/-- A search library that scans all points. -/
def scanLib : AnnLib F where
  kSearch ds set q k := positions set ((nnAnswer (ds.sqd q) set k none).getD [])
  frSearch ds set q rsq k :=
    let r := collect k (some rsq) [] (set.map fun j => (ds.sqd q j, j))
    if r.length = k then (k, positions set (r.reverse.map Prod.snd)) else (0, List.replicate k 0)

theorem positions_pointsAt {set l : List Nat} (h : l ⊆ set) : PointsAt set (positions set l) l := by
  unfold PointsAt positions
  rw [List.map_map]
  exact List.map_congr_left fun x hx => List.getElem?_idxOf (h hx)

/-- The scanning library satisfies every criterion that the answers of the built-in search satisfy. -/
theorem scanLib_ok (ds : DataSet F) {A : Criterion F} (hA : ∀ set k radius q, set.Nodup → (∀ x ∈ set, x < ds.n) → q < ds.n → 0 < k → k ≤ set.length → A set k radius q (nnAnswer (ds.sqd q) set k radius)) :
    AnnOk scanLib ds A where
  kSearch set q k h1 h2 h3 h4 h5 := by
    have hwf := nnAnswer_wellFormed (d := ds.sqd q) (radius := none) h1 h5 q
    obtain ⟨l, hl⟩ := Option.ne_none_iff_exists'.1 (hwf.1 rfl)
    obtain ⟨g1, g2, g3⟩ := hwf.2 l hl
    refine ⟨l, ?_, g1, g2, ?_⟩
    · show PointsAt set (positions set ((nnAnswer (ds.sqd q) set k none).getD [])) l
      rw [hl]
      exact positions_pointsAt g3
    · rw [← hl]
      exact hA set k none q h1 h2 h3 h4 h5
  frSearch set q k r h1 h2 h3 h4 h5 := by
    have hwf := nnAnswer_wellFormed (d := ds.sqd q) (radius := some r) h1 h5 q
    have hans := hA set k (some r) q h1 h2 h3 h4 h5
    have he : nnAnswer (ds.sqd q) set k (some r) = if (collect k (some (FloatOps.mul r r)) [] (set.map fun j => (ds.sqd q j, j))).length = k then
        some ((collect k (some (FloatOps.mul r r)) [] (set.map fun j => (ds.sqd q j, j))).reverse.map Prod.snd) else none := rfl
    have hfr : scanLib.frSearch ds set q (FloatOps.mul r r) k = if (collect k (some (FloatOps.mul r r)) [] (set.map fun j => (ds.sqd q j, j))).length = k then
        (k, positions set ((collect k (some (FloatOps.mul r r)) [] (set.map fun j => (ds.sqd q j, j))).reverse.map Prod.snd)) else (0, List.replicate k 0) := rfl
    by_cases hk : (collect k (some (FloatOps.mul r r)) [] (set.map fun j => (ds.sqd q j, j))).length = k
    · rw [if_pos hk] at he
      rw [if_pos hk] at hfr
      rw [hfr]
      obtain ⟨g1, g2, g3⟩ := hwf.2 _ he
      refine ⟨by unfold positions; rw [List.length_map]; exact g1, ?_⟩
      rw [if_pos le_rfl]
      exact ⟨_, positions_pointsAt g3, g2, he ▸ hans⟩
    · rw [if_neg hk] at he
      rw [if_neg hk] at hfr
      rw [hfr]
      refine ⟨List.length_replicate, ?_⟩
      rw [if_neg (by dsimp only; omega), ← he]
      exact hans

theorem lineScan_ok : AnnOk scanLib lineData lineA := scanLib_ok lineData fun _ _ _ _ _ _ _ _ _ => rfl

/-! ### The same process, with and without the leaks -/

/-- The twin of a process and itself. -/
def selfTwin (x c : Prop) (w : World) : Twin := ⟨w.clock, w.clock, fun i j => i = j ∧ i < w.clock, w.err, w.err, w.fails, w.fails, x, c⟩

theorem selfTwin_names {x c : Prop} {w : World} (i : Nat) : (selfTwin x c w).Names i i := by
  by_cases h : i < w.clock
  · exact .inl ⟨rfl, h⟩
  · exact .inr ⟨i - w.clock, (Nat.add_sub_cancel' (Nat.not_lt.1 h)).symm, (Nat.add_sub_cancel' (Nat.not_lt.1 h)).symm⟩

theorem selfTwin_eq {x c : Prop} {w : World} {i j : Nat} (h : (selfTwin x c w).Names i j) : j = i := by
  rcases h with h | ⟨t, h1, h2⟩
  · exact h.1.symm
  · exact h2.trans h1.symm

theorem selfTwin_start {x c : Prop} {w : World} (hw : w.Ordinary) (hc : c → w.NoFail) : (selfTwin x c w).Worlds w w := by
  refine ⟨⟨0, rfl, rfl⟩, fun _ _ => rfl, hw.below, hw.below, hw.distinct, hw.distinct, ?_, ?_, ?_, ?_, .inr rfl, hc, rfl, rfl⟩
  · rintro i j ⟨rfl, h⟩
    exact ⟨h, h⟩
  · rintro i j j' ⟨rfl, _⟩ ⟨rfl, _⟩
    rfl
  · rintro i i' j ⟨rfl, _⟩ ⟨rfl, _⟩
    rfl
  · intro i j h
    rw [selfTwin_eq h]
    exact ⟨le_rfl, fun _ => le_rfl⟩

theorem selfTwin_end {x c : Prop} {w w' v' : World} (h : (selfTwin x c w).Worlds w' v') :
    v'.clock = w'.clock ∧ v'.err = w'.err ∧ v'.fails = w.fails ∧ w'.live ≤ v'.live ∧ (x → v'.live = w'.live) := by
  obtain ⟨t, h1, h2⟩ := h.clock
  have hle : w'.live ≤ v'.live := Multiset.le_iff_count.2 fun i => (h.live i i (selfTwin_names i)).1
  refine ⟨h2.trans h1.symm, ?_, h.kept.2, hle, fun hx => le_antisymm (Multiset.le_iff_count.2 fun i => (h.live i i (selfTwin_names i)).2 hx) hle⟩
  rcases h.err with ⟨g1, g2⟩ | g
  · exact g2.trans g1.symm
  · exact g.symm

theorem selfTwin_arr {x c : Prop} {w : World} (a : Option Arr) : ArrAlike (selfTwin x c w) a a := by
  cases a with
  | none => exact .null
  | some a =>
    obtain ⟨ids, b⟩ := a
    refine .arr ?_
    induction ids with
    | nil => exact .nil
    | cons i ids ih => exact .cons (selfTwin_names i) ih

theorem selfTwin_obj {x c : Prop} {w : World} (ob : ClObj) : ClObjAlike (selfTwin x c w) ob ob := by
  obtain ⟨i, v, n, k, l, e⟩ := ob
  refine .mk (selfTwin_names i) (.mk ?_)
  cases l with
  | none => exact .null
  | some l => exact .ptr (selfTwin_names l.id)

theorem selfTwin_obj_eq {x c : Prop} {w : World} {p q : Option ClObj} (h : ObjAlike (selfTwin x c w) p q) : q = p := by
  cases h with
  | none => rfl
  | some h =>
    obtain ⟨hi, hc⟩ := h
    obtain ⟨hl⟩ := hc
    rw [selfTwin_eq hi]
    cases hl with
    | null => rfl
    | ptr hl => rw [selfTwin_eq hl]

theorem selfTwin_ann {x c : Prop} {w : World} (o : AnnObj) : AnnAlike (selfTwin x c w) o o := by
  obtain ⟨i, p, t, len, a, set⟩ := o
  exact .mk (selfTwin_names i) (selfTwin_names p) (selfTwin_names t) (selfTwin_arr a)

theorem selfTwin_arr_eq {x c : Prop} {w : World} {a b : Option Arr} (h : ArrAlike (selfTwin x c w) a b) : b = a := by
  cases h with
  | null => rfl
  | arr h =>
    rename_i l l' b
    suffices l' = l by rw [this]
    induction h with
    | nil => rfl
    | cons h _ ih => rw [selfTwin_eq h, ih]

theorem selfTwin_ann_eq {x c : Prop} {w : World} {p q : AnnObj} (h : AnnAlike (selfTwin x c w) p q) : q = p := by
  obtain ⟨hi, hp, ht, ha⟩ := h
  rw [selfTwin_eq hi, selfTwin_eq hp, selfTwin_eq ht, selfTwin_arr_eq ha]

/-! ### C58 -/

/-- C58, opening a search object: it fails only if a request for memory fails or there are more than `INT_MAX` points. Otherwise the object is one in which `C58_search` can search, its blocks are new, and nothing
else has changed. -/
theorem C58_open {ds : DataSet F} (hc : ds.Complete) {arr : Option Arr} {L : List Nat} {w : World} (hw : w.Ordinary) (ha : ArrHolds arr L) (hnd : L.Nodup) (hr : ∀ x ∈ L, x < ds.n)
    (hl : ∀ i ∈ arrIds arr, i ∈ w.live) :
    ∃ r w', annInit ds L.length arr w = some (r, w') ∧ w'.fails = w.fails ∧ w'.err = w.err ∧
      match r with
      | none => w.live ≤ w'.live ∧ (¬ w.NoFail ∨ intMax < ds.n)
      | some o => ∃ own, annIsNN ds.n o L own (arrIds arr) ∧ own + w.live ≤ w'.live := by
  obtain ⟨r, w', h1, h2, h3, h4⟩ := annInitTidy_spec hc w ha hnd hr hl
  obtain ⟨r', v', g1, g2, g3⟩ := same_annInit (T := selfTwin False False w) False.elim ds L.length arr arr (selfTwin_arr arr) w w r w' (selfTwin_start hw False.elim) h1
  obtain ⟨e1, e2, e3, e4, -⟩ := selfTwin_end g2
  refine ⟨r', v', g1, e3, e2.trans h3, ?_⟩
  cases g3 with
  | none => exact ⟨h4.1 ▸ e4, h4.2⟩
  | some ho =>
    obtain ⟨own, k1, k2⟩ := h4
    obtain rfl := selfTwin_ann_eq ho
    exact ⟨own, k1, k2 ▸ e4⟩

example : ∃ o w', annInit lineData 4 (some ⟨[], .ofList [0, 2, 3, 5]⟩) (sampleWorld [5]) = some (some o, w') ∧ o.set = [0, 2, 3, 5] := by
  have h : ((annInit lineData 4 (some ⟨[], .ofList [0, 2, 3, 5]⟩) (sampleWorld [5])).bind fun r => r.1.map AnnObj.set) = some [0, 2, 3, 5] := by decide +kernel
  obtain ⟨⟨r, w'⟩, h1, h⟩ := Option.bind_eq_some_iff.1 h
  obtain ⟨o, ho, h2⟩ := Option.map_eq_some_iff.1 h
  dsimp only at ho
  subst ho
  exact ⟨o, w', h1, h2⟩

/-- C58, nearest neighbour search: if the ANN library does what its documentation says, then a search in an open search object has no undefined behaviour. It fails only if a request for memory fails or there are
more than `INT_MAX` points. Otherwise the answered queries and their neighbours are returned in order, and every answer, and every missing answer, is one that the criterion of the library allows. -/
theorem C58_search {lib : AnnLib F} {ds : DataSet F} {A : Criterion F} (hA : AnnOk lib ds A) (hc : ds.Complete) (direct : Bool) {o : AnnObj} {set : List Nat} {own : Multiset Nat} {ids : List Nat} {lenQ : Nat}
    {queries : Option Arr} {Q : List Nat} {k : Nat} (rs : Bool) (radius : F) {oq : OutQ} {nn : Buf Nat} {w : World} (hw : w.Ordinary) (ho : annIsNN ds.n o set own ids) (hown : own ≤ w.live)
    (hcall : NNCall ds.n set w ids lenQ queries Q k rs oq nn) :
    ∃ r w', annSearch direct lib ds o lenQ queries k rs radius oq nn w = some (r, w') ∧ w'.fails = w.fails ∧ w'.err = w.err ∧ w.live ≤ w'.live ∧
      match r with
      | none => ¬ w.NoFail ∨ intMax < ds.n
      | some out => ∃ res : List (Nat × Option (List Nat)), res.map Prod.fst = Q ∧
          (∀ p ∈ res, A set k (if rs then some radius else none) p.1 p.2 ∧ WellFormed set k (if rs then some radius else none) p.1 p.2) ∧ out.Matches oq k res := by
  obtain ⟨r, w', h1, h2, h3, h4, h5⟩ := (annTidySpi_ok hA hc direct).nnSearch o set own ids lenQ queries Q k rs radius oq nn w ho hown hcall
  obtain ⟨r', v', g1, g2, rfl⟩ := same_annSearch (T := selfTwin False False w) (direct := direct) False.elim lib ds o o lenQ queries queries k rs radius oq nn (selfTwin_ann o) (selfTwin_arr queries) w w r w'
    (selfTwin_start hw False.elim) h1
  obtain ⟨e1, e2, e3, e4, -⟩ := selfTwin_end g2
  refine ⟨r, v', g1, e3, e2.trans h3, h4 ▸ e4, ?_⟩
  cases r with
  | none => exact h5
  | some out => exact h5.2.2

/-- A search for the two nearest neighbours of points 1 and 4 among 0, 2, 3, 5 of six points on a line. -/
example : AnnOk scanLib lineData lineA ∧ lineData.Complete ∧ (sampleWorld [5, 6, 7]).Ordinary ∧
    annIsNN 6 ⟨5, 6, 7, 4, some ⟨[], .ofList [0, 2, 3, 5]⟩, [0, 2, 3, 5]⟩ [0, 2, 3, 5] {5, 6, 7} [] ∧ ({5, 6, 7} : Multiset Nat) ≤ (sampleWorld [5, 6, 7]).live ∧
    NNCall 6 [0, 2, 3, 5] (sampleWorld [5, 6, 7]) [] 2 (some ⟨[], .ofList [1, 4]⟩) [1, 4] 2 false .null (Buf.raw 4) ∧
    ((annSearch true scanLib lineData ⟨5, 6, 7, 4, some ⟨[], .ofList [0, 2, 3, 5]⟩, [0, 2, 3, 5]⟩ 2 (some ⟨[], .ofList [1, 4]⟩) 2 false 0 .null (Buf.raw 4) (sampleWorld [5, 6, 7])).bind fun r =>
      r.1.bind fun out => out.nn.read 4) = some [0, 2, 3, 2] := by
  refine ⟨lineScan_ok, lineData_complete, ⟨by decide, by decide⟩, ⟨rfl, ?_, rfl, by decide, by decide, rfl⟩, by decide, ?_, by decide +kernel⟩
  · intro i x hx
    rw [← hx]
    exact Buf.get_ofList _ _
  · refine ⟨?_, rfl, by decide, by decide, by decide, by decide, by decide, by decide, by decide, Or.inl rfl, nofun⟩
    intro i x hx
    rw [← hx]
    exact Buf.get_ofList _ _

/-- C58, the leaks of the ANN back end have no effect on results: a call of `scc_sc_clustering` returns the same error code, leaves the same clustering object and the same error record, and makes the same
requests for memory as it would if the back end freed what it forgets to free. -/
theorem C58_leaks_harmless {cfg : Cfg} {direct : Bool} {lib : AnnLib F} {p : Option (DataSet F)} {o : Options F} {ob : Option ClObj} {w w' : World} (hw : w.Ordinary) {e : ErrorCode} {r : Option ClObj}
    (hrun : scClustering cfg (annTidySpi direct lib p) o ob w = some ((e, r), w')) :
    ∃ v', scClustering cfg (annSpi direct lib p) o ob w = some ((e, r), v') ∧ v'.clock = w'.clock ∧ v'.err = w'.err ∧ v'.fails = w.fails ∧ w'.live ≤ v'.live ∧
      (w.NoFail → direct = false → v'.live = w'.live) := by
  have hob : ∀ {x c : Prop}, ObjAlike (selfTwin x c w) ob ob := fun {x c} => by
    cases ob with
    | none => exact .none
    | some ob => exact .some (selfTwin_obj ob)
  obtain ⟨⟨e', r'⟩, v', h1, h2, h3, h4⟩ := same_scClustering cfg (annAlike (T := selfTwin (w.NoFail ∧ direct = false) w.NoFail w) (direct := direct) (fun h => h) lib p) o hob w w _ w'
    (selfTwin_start hw fun h => h) hrun
  dsimp only at h3 h4
  subst h3
  obtain rfl := selfTwin_obj_eq h4
  obtain ⟨e1, e2, e3, e4, e5⟩ := selfTwin_end h2
  exact ⟨v', h1, e1, e2, e3, e4, fun hn hd => e5 ⟨hn, hd⟩⟩

/-- C58, results: whatever is guaranteed of successful calls of `scc_sc_clustering` with back ends that work as documented, is true with the ANN back end. -/
theorem C58_transfer {cfg : Cfg} (direct : Bool) {lib : AnnLib F} {ds : DataSet F} {A : Criterion F} (hA : AnnOk lib ds A) (hc : ds.Complete) {o : Options F} {ob : ClObj} (hn : ob.cl.n = ds.n) {w : World}
    (hw : w.Ordinary) {Q : Nat → Buf Int → Prop} (hQ : ∀ spi : Spi F, SpiOk spi ob.cl.n A ds.dist (intMax < ds.n) → OnSuccess cfg spi o ob w Q) : OnSuccess cfg (annSpi direct lib (some ds)) o ob w Q := by
  obtain ⟨e, p, w', h1, h2⟩ := hQ (annTidySpi direct lib (some ds)) (hn ▸ annTidySpi_ok hA hc direct)
  obtain ⟨v', g1, g2, g3, g4, g5, -⟩ := C58_leaks_harmless hw h1
  refine ⟨e, p, v', g1, fun he => ⟨g4, ?_⟩⟩
  obtain ⟨-, cl, b, k1, k2, k3, k4, k5, k6⟩ := h2 he
  exact ⟨cl, b, k1, k2, k3, k4.trans g5, k5, k6⟩

/-- C58, for example: the size constraint (C01) with the ANN back end. -/
theorem C58_size_constraint {cfg : Cfg} (direct : Bool) {lib : AnnLib F} {ds : DataSet F} {A : Criterion F} (hA : AnnOk lib ds A) (hc : ds.Complete) {o : Options F} {ob : ClObj} (hn : ob.cl.n = ds.n) {w : World}
    (hw : w.Ordinary) {P : List Nat} {lab c : Nat → Nat} (hcall : CallOk cfg o ob P lab c w) {m : SeedMethod} (hm : o.seedMethod = .method m) :
    OnSuccess cfg (annSpi direct lib (some ds)) o ob w fun k b => 1 ≤ k ∧ ValidLabels cfg b ob.cl.n k ∧ ∀ i, i < k → o.sizeConstraint ≤ (members b ob.cl.n i).length :=
  C58_transfer direct hA hc hn hw fun _ hs => C01_size_constraint hs hcall hm

/-- C58, for example: the type constraints (C02) with the ANN back end. -/
theorem C58_type_constraints {cfg : Cfg} (direct : Bool) {lib : AnnLib F} {ds : DataSet F} {A : Criterion F} (hA : AnnOk lib ds A) (hc : ds.Complete) {o : Options F} {ob : ClObj} (hn : ob.cl.n = ds.n) {w : World}
    (hw : w.Ordinary) {P : List Nat} {lab c : Nat → Nat} (hcall : CallOk cfg o ob P lab c w) {m : SeedMethod} (hm : o.seedMethod = .method m) (ht : 2 ≤ o.numTypes) :
    OnSuccess cfg (annSpi direct lib (some ds)) o ob w fun k b => 1 ≤ k ∧ ValidLabels cfg b ob.cl.n k ∧ ∀ i, i < k →
      o.sizeConstraint ≤ (members b ob.cl.n i).length ∧ ∀ t, t < o.numTypes → c t ≤ (members b ob.cl.n i).countP fun v => lab v = t :=
  C58_transfer direct hA hc hn hw fun _ hs => C02_type_constraints hs hcall hm ht

/-- C58, for example: assignment to the closest cluster (C07) with the ANN back end and exact search. -/
theorem C58_closest {cfg : Cfg} (direct : Bool) {lib : AnnLib F} {ds : DataSet F} {le : Nat → Nat → Nat → Prop} {within : Nat → Nat → F → Prop} (hA : AnnOk lib ds (Nearest le within)) (hrefl : ∀ q x, le q x x)
    (hc : ds.Complete) {o : Options F} {ob : ClObj} (hn : ob.cl.n = ds.n) {w : World} (hw : w.Ordinary) {P : List Nat} {lab c : Nat → Nat} (hcall : CallOk cfg o ob P lab c w) {m : SeedMethod}
    (hm : o.seedMethod = .method m) (hst : o.numTypes < 2 → o.primaryMethod = .closestAssigned → cfg.stableNng = false) :
    OnSuccess cfg (annSpi direct lib (some ds)) o ob w fun k b => ∃ N seeds, SeedClusters cfg (Nearest le within) ob.cl.n o P lab c k b N seeds ∧
      ∀ i, i < k → ∀ v ∈ members b ob.cl.n i, CapturedBy N seeds i v ∨
        (∀ j, ¬ CapturedBy N seeds j v) ∧ (v ∈ P ∧ MayJoin le N seeds o.primaryMethod v i ∨ MayJoin le N seeds o.secondaryMethod v i) :=
  C58_transfer direct hA hc hn hw fun _ hs => C07_closest hs hrefl hcall hm hst

/-- Six points on a line, clustered with the ANN back end, for both kinds of indices. -/
example (direct : Bool) : AnnOk scanLib lineData lineA ∧ lineData.Complete ∧ lineObj.cl.n = lineData.n ∧ (sampleWorld [5]).Ordinary ∧
    CallOk sampleCfg (lineOpts .anyNeighbor .useSeedRadius 0) lineObj (List.range 6) (fun _ => 0) (fun _ => 0) (sampleWorld [5]) ∧
    ((scClustering sampleCfg (annSpi direct scanLib (some lineData)) (lineOpts .anyNeighbor .useSeedRadius 0) (some lineObj) (sampleWorld [5])).bind fun r => r.1.2.bind fun ob => ob.cl.label.bind fun b =>
      (b.buf.read 6).map fun l => (r.1.1, ob.cl.numClusters, l)) = some (.ok, 2, [0, 0, 0, 1, 1, 1]) :=
  ⟨lineScan_ok, lineData_complete, rfl, ⟨by decide, by decide⟩, line_call _ _ _, by cases direct <;> decide +kernel⟩

/-- C58, the rest of the back end: distances and maximum distance search are the built-in ones, so all guarantees for hierarchical clustering and for statistics hold with the ANN back end. -/
def annMetric {ds : DataSet F} (h : ds.Metric) (direct : Bool) (lib : AnnLib F) : MetricOk (annSpi direct lib (some ds)) ds.n ds.dist False where
  isMD := (builtinMetric h).isMD
  maxInit := by
    intro len arr L w h1 h2 h3 h4 h5 h6
    refine ((builtinMetric h).maxInit len arr L w h1 h2 h3 h4 h5 h6).mono ?_
    rintro (_ | o) w' h
    · exact h
    · exact h
  maxDist := (builtinMetric h).maxDist
  maxClose := (builtinMetric h).maxClose
  distRows := (builtinMetric h).distRows
  distMatrix := (builtinMetric h).distMatrix
  numPoints := rfl

theorem C58_metric {ds : DataSet F} (h : ds.Metric) (direct : Bool) (lib : AnnLib F) : Nonempty (MetricOk (annSpi direct lib (some ds)) ds.n ds.dist False) := ⟨annMetric h direct lib⟩

example : lineData.Metric := intMetric lineData_complete

/-! #### The counter of open search objects -/

/-- The wrapper counts open search objects. Here `true` stands for opening an object and `false` for closing one: the return values of the closing calls, and the counter. -/
def annCount : Int → List Bool → List Bool × Int
  | c, [] => ([], c)
  | c, true :: l => annCount (annInitCount c) l
  | c, false :: l => let r := annCloseCount c; let s := annCount r.2 l; (r.1 :: s.1, s.2)

/-- C58, closing: as long as only open objects are closed, closing never reports failure, and the counter is the number of open objects. -/
theorem C58_close {l : List Bool} (h : ∀ m, m ≤ l.length → (l.take m).count false ≤ (l.take m).count true) :
    (∀ b ∈ (annCount 0 l).1, b = true) ∧ (annCount 0 l).1.length = l.count false ∧ (annCount 0 l).2 = (l.count true : Int) - (l.count false : Int) := by
  suffices H : ∀ (l : List Bool) (c : Nat), (∀ m, m ≤ l.length → (l.take m).count false ≤ c + (l.take m).count true) →
      (∀ b ∈ (annCount c l).1, b = true) ∧ (annCount c l).1.length = l.count false ∧ (annCount c l).2 = (c : Int) + (l.count true : Int) - (l.count false : Int) by
    have := H l 0 (by simpa using h)
    simpa using this
  intro l
  induction l with
  | nil => intro c _; simp [annCount]
  | cons b l ih =>
    intro c hl
    cases b with
    | true =>
      have := ih (c + 1) (fun m hm => by
        have := hl (m + 1) (by simpa using hm)
        simp only [List.take_succ_cons, List.count_cons] at this
        simpa [Nat.add_assoc, Nat.add_comm 1] using this)
      simp only [annCount, annInitCount]
      obtain ⟨h1, h2, h3⟩ := this
      push_cast at h1 h2 h3
      refine ⟨h1, ?_, ?_⟩
      · rw [h2]; simp
      · rw [h3]; simp; omega
    | false =>
      have hc : 0 < c := by
        have := hl 1 (by simp)
        simp at this
        omega
      obtain ⟨c, rfl⟩ : ∃ d, c = d + 1 := ⟨c - 1, by omega⟩
      have := ih c (fun m hm => by
        have := hl (m + 1) (by simpa using hm)
        simp only [List.take_succ_cons, List.count_cons] at this
        simp at this
        omega)
      have hcc : annCloseCount ((c + 1 : Nat) : Int) = (true, (c : Int)) := by
        unfold annCloseCount
        rw [if_neg (by omega)]
        congr 1
        push_cast
        omega
      simp only [annCount, hcc]
      obtain ⟨h1, h2, h3⟩ := this
      refine ⟨?_, ?_, ?_⟩
      · intro b hb
        rcases List.mem_cons.1 hb with rfl | hb
        · rfl
        · exact h1 b hb
      · simp [h2]
      · rw [h3]; simp; omega

/-- Two objects at a time, then one. -/
example : (∀ m, m ≤ [true, true, false, false, true, false].length → ([true, true, false, false, true, false].take m).count false ≤ ([true, true, false, false, true, false].take m).count true) ∧
    annCount 0 [true, true, false, false, true, false] = ([true, true, true], 0) := by decide

/-! ### C59 -/

/-- C59, restricted to calls in which all requests for memory succeed, when `scc_PointIndex` is not `int` and there are at most `INT_MAX` points: after a call of `scc_sc_clustering` with the ANN back end the heap
holds the same blocks as before and possibly a new label array. Missing: the other cases, where the claim is false (`C59_fails_int`, `C59_fails_init`, `C59_fails_search`). -/
theorem C59_no_leak_partial {cfg : Cfg} {lib : AnnLib F} {ds : DataSet F} {A : Criterion F} (hA : AnnOk lib ds A) (hds : ds.Complete) (hmax : ds.n ≤ intMax) {o : Options F} {ob : ClObj} (hn : ob.cl.n = ds.n)
    {w : World} (hw : w.Ordinary) (hnf : w.NoFail) {P : List Nat} {lab c : Nat → Nat} (hc : CallOk cfg o ob P lab c w) {m : SeedMethod} (hm : o.seedMethod = .method m)
    (hacc : Accepts cfg (annSpi false lib (some ds)).valid ds.n o ob.cl P) (hsol : Solvable cfg A ds.dist ob.cl.n o m P lab c) (hex : ¬ m.IsExclusion) :
    ∃ cl' w' M, scClustering cfg (annSpi false lib (some ds)) o (some ob) w = some ((.ok, some ⟨ob.id, cl'⟩), w') ∧ w.live = ptrOwn ob.cl.label + M ∧ w'.live = ptrOwn cl'.label + M := by
  have hs : SpiOk (annTidySpi false lib (some ds)) ob.cl.n A ds.dist False := by
    have h := annTidySpi_ok hA hds false
    rw [show (intMax < ds.n) = False from propext ⟨fun h => absurd hmax (Nat.not_le.2 h), False.elim⟩] at h
    exact hn ▸ h
  obtain ⟨e, cl', w', leak, M, h1, h2, h3, h4, h5⟩ := C38_failures_reported_partial hs hc hm hacc hsol
  obtain ⟨v', g1, -, -, -, -, g2⟩ := C58_leaks_harmless hw h1
  have he : e = .ok := by
    rcases h2 with h2 | ⟨-, ⟨-, h⟩ | ⟨-, h, -⟩⟩
    · exact h2
    · exact absurd hnf h
    · exact absurd h hex
  subst he
  have hl : leak = 0 := by
    rcases h5 with h | ⟨h, -⟩
    · exact h
    · exact absurd h hex
  refine ⟨cl', v', M, g1, h3, ?_⟩
  rw [g2 hnf rfl, h4, hl, zero_add]

/-- Six points on a line, four of them primary, meet the hypotheses of `C59_no_leak_partial`. -/
example : ∃ cl' w' M, scClustering sampleCfg (annSpi false scanLib (some lineData)) (fourOpts (.method .lexical) .anyNeighbor .noRadius true) (some lineObj) (sampleWorld [5]) = some ((.ok, some ⟨5, cl'⟩), w') ∧
    (sampleWorld [5]).live = ptrOwn lineObj.cl.label + M ∧ w'.live = ptrOwn cl'.label + M :=
  C59_no_leak_partial (m := .lexical) lineScan_ok lineData_complete (by decide) rfl ⟨by decide, by decide⟩ (fun _ _ => rfl) (four_call (.method .lexical) .anyNeighbor .noRadius true) rfl
    (four_accepts true nofun nofun (Or.inl rfl) nofun) (four_solvable true (Or.inl rfl)) (by unfold SeedMethod.IsExclusion; decide)

/-- A call of `scc_sc_clustering` on an object loses memory: afterwards a block is in use that was not before, and that is not part of the object. -/
def LosesMemory (spi : Spi Int) (o : Options Int) (ob : ClObj) (w : World) (code : ErrorCode) : Prop :=
  ∃ p w' x, scClustering sampleCfg spi o (some ob) w = some ((code, some p), w') ∧ x ∈ w'.live ∧ x ∉ w.live ∧ x ∉ p.blocks

theorem losesMemory {spi : Spi Int} {o : Options Int} {ob : ClObj} {w : World} {code : ErrorCode} (x : Nat)
    (h : ((scClustering sampleCfg spi o (some ob) w).bind fun r => r.1.2.map fun p => (r.1.1, decide (x ∈ r.2.live), decide (x ∈ w.live), decide (x ∈ p.blocks))) = some (code, true, false, false)) :
    LosesMemory spi o ob w code := by
  obtain ⟨⟨⟨e, p⟩, w'⟩, h1, h⟩ := Option.bind_eq_some_iff.1 h
  obtain ⟨p, hp, h⟩ := Option.map_eq_some_iff.1 h
  dsimp only at hp h
  subst hp
  simp only [Prod.mk.injEq, decide_eq_true_eq, decide_eq_false_iff_not] at h
  obtain ⟨rfl, h2, h3, h4⟩ := h
  exact ⟨p, w', x, h1, h2, h3, h4⟩

/-- C59 is false when `scc_PointIndex` is `int`: an ordinary call that succeeds loses a block, although no request for memory fails. The code that frees it is reached only for searches with radius. -/
theorem C59_fails_int : (sampleWorld [5]).NoFail ∧ LosesMemory (annSpi true scanLib (some lineData)) (lineOpts .anyNeighbor .useSeedRadius 0) lineObj (sampleWorld [5]) .ok :=
  ⟨fun _ _ => rfl, losesMemory 105 (by decide +kernel)⟩

/-- C59 is false when the second request for memory of the function that opens search objects fails: the first block is lost. -/
theorem C59_fails_init (direct : Bool) :
    LosesMemory (annSpi direct scanLib (some lineData)) (lineOpts .anyNeighbor .useSeedRadius 0) lineObj ((sampleWorld [5]).withFails fun i _ => i == 101) .distSearch :=
  losesMemory 100 (by cases direct <;> decide +kernel)

/-- C59 is false when the second request for memory of a search fails: the first block is lost. -/
theorem C59_fails_search :
    LosesMemory (annSpi false scanLib (some lineData)) (lineOpts .anyNeighbor .useSeedRadius 0) lineObj ((sampleWorld [5]).withFails fun i _ => i == 106) .distSearch :=
  losesMemory 105 (by decide +kernel)

end Scc
