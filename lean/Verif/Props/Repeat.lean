/-
C57: the same calls in two processes give the same results.
-/
import Verif.Proofs.Rerun
import Verif.Props.Histories
import Verif.Props.Hierarchical
import Verif.Proofs.RunOk

set_option linter.unusedVariables false

namespace Scc

variable {F : Type} [FloatOps F]

/-- The built-in distance functions are repeatable. -/
theorem builtin_repeatable (p : Option (DataSet F)) : (builtinSpi p).Repeatable := fun T => ⟨builtinAlike T p⟩

/-! ### Samples -/

/-- Another process: more requests were made before, and other blocks are in use. -/
def otherWorld : World := ⟨fun _ _ => false, 500, ([3, 40, 77] : List Nat), ⟨.noMemory, some "earlier", "src/earlier.c", 1⟩⟩

theorem sampleWorld_ordinary : (sampleWorld [5, 7]).Ordinary := ⟨by decide, by decide⟩

theorem otherWorld_ordinary : otherWorld.Ordinary := ⟨by decide, by decide⟩

/-- C57 for histories: a history of calls that has an outcome in one process has one in any other process where the client's objects and arrays have the same contents, whatever else is in memory and whatever
was called before. The error codes are the same, and the objects have the same contents. -/
theorem C57_history {cfg : Cfg} {ρ : Nat → Nat} {B : Set Nat} {w v : World} (h : SameProcess ρ B w v) {ops : List (Op F)} (hr : ∀ op ∈ ops, op.Repeatable) (hb : ∀ op ∈ ops, ∀ i ∈ op.blocks, i ∈ B)
    {objs objs' : List ClObj} (ho : ∀ ob ∈ objs, ∀ i ∈ ob.blocks, i ∈ B) {codes : List ErrorCode} {w' : World} (hrun : runOps cfg ops objs w = some ((codes, objs'), w')) :
    ∃ ρ' v', runOps cfg (ops.map (Op.rename ρ)) (objs.map (ClObj.rename ρ)) v = some ((codes, objs'.map (ClObj.rename ρ')), v') ∧ SameAfter ρ B w v ρ' w' v' := by
  obtain ⟨⟨c, l⟩, v', h1, h2, h3, h4⟩ := same_runOps cfg h hr hb (objs_rename h ho) w v _ w' (twin_start (x := True) (c := False) h False.elim) hrun
  dsimp only at h3 h4
  subst h3
  exact ⟨moved ρ w v, v', by rw [h1, alike_objs h h4], twin_end h trivial h2⟩

/-- A client that clusters six points with its own label array, copies and refines the clustering, and asks for statistics; and the same client in another process. -/
def sampleOps : List (Op Int) :=
  [.initEmpty 6 (some ⟨7, .ofList [0, 0, 0, 0, 0, 0]⟩) true, .cluster 0 (builtinSpi (some lineData)) (lineOpts .closestAssigned .noRadius 0), .copy 0 true,
    .hierarchical 1 sampleEnv (builtinSpi (some lineData)) 2 false, .stats 1 (builtinSpi (some lineData)) true, .check 0 (lineOpts .ignore .noRadius 0) true, .free 0, .free 5]

example : SameProcess (fun i => i + 70) {7} (sampleWorld [5, 7]) otherWorld ∧ (∀ op ∈ sampleOps, op.Repeatable) ∧ (∀ op ∈ sampleOps, ∀ i ∈ op.blocks, i ∈ ({7} : Set Nat)) ∧
    (runOps sampleCfg sampleOps [] (sampleWorld [5, 7])).map (fun r => (r.1.1, r.1.2.map fun ob => (ob.cl.numClusters, (ptrBuf ob.cl.label).read 6))) =
      some ([.ok, .ok, .ok, .ok, .ok, .ok, .ok, .ok], [(2, some [1, 1, 1, 0, 0, 0])]) := by
  refine ⟨⟨sampleWorld_ordinary, otherWorld_ordinary, fun _ _ => rfl, ?_, ?_⟩, ?_, ?_, by decide +kernel⟩
  · rintro i rfl
    exact ⟨by decide, by decide⟩
  · intro i _ j _ h
    exact Nat.add_right_cancel h
  · intro op hop
    simp only [sampleOps, List.mem_cons, List.not_mem_nil, or_false] at hop
    rcases hop with rfl | rfl | rfl | rfl | rfl | rfl | rfl | rfl
    all_goals first | trivial | exact builtin_repeatable _
  · intro op hop i hi
    simp only [sampleOps, List.mem_cons, List.not_mem_nil, or_false] at hop
    rcases hop with rfl | rfl | rfl | rfl | rfl | rfl | rfl | rfl
    all_goals first | cases hi; done | exact List.mem_singleton.1 hi

/-- Correspondence is symmetric. -/
theorem SameProcess.symm {ρ : Nat → Nat} {B : Set Nat} {w v : World} (h : SameProcess ρ B w v) : ∃ σ, SameProcess σ (ρ '' B) v w ∧ ∀ i ∈ B, σ (ρ i) = i := by
  obtain ⟨σ, hs⟩ : ∃ σ : Nat → Nat, ∀ i ∈ B, σ (ρ i) = i := by
    have key : ∀ j, ∃ i, j ∈ ρ '' B → i ∈ B ∧ ρ i = j := fun j => by
      by_cases hj : j ∈ ρ '' B
      · obtain ⟨i, hi⟩ := hj
        exact ⟨i, fun _ => hi⟩
      · exact ⟨0, fun h => absurd h hj⟩
    obtain ⟨σ, hσ⟩ := Classical.axiomOfChoice key
    exact ⟨σ, fun i hi => h.inj _ (hσ _ ⟨i, hi, rfl⟩).1 i hi (hσ _ ⟨i, hi, rfl⟩).2⟩
  refine ⟨σ, ⟨h.second, h.first, fun t c => (h.fails t c).symm, ?_, ?_⟩, hs⟩
  · rintro j ⟨i, hi, rfl⟩
    rw [hs i hi]
    exact ⟨(h.live i hi).2, (h.live i hi).1⟩
  · rintro j ⟨i, hi, rfl⟩ j' ⟨i', hi', rfl⟩ he
    rw [hs i hi, hs i' hi'] at he
    rw [he]

theorem renamePtr_back {α : Type} {ρ σ : Nat → Nat} {p : Option (Blk α)} (h : ∀ i ∈ ptrIds p, σ (ρ i) = i) : renamePtr σ (renamePtr ρ p) = p := by
  cases p with
  | none => rfl
  | some b =>
    show some (⟨σ (ρ b.id), b.buf⟩ : Blk α) = some b
    rw [h b.id (List.mem_singleton.2 rfl)]

theorem rename_back {ρ σ : Nat → Nat} {ob : ClObj} (h : ∀ i ∈ ob.blocks, σ (ρ i) = i) : (ob.rename ρ).rename σ = ob := by
  obtain ⟨i, ver, n, k, l, e⟩ := ob
  show (⟨σ (ρ i), ver, n, k, renamePtr σ (renamePtr ρ l), e⟩ : ClObj) = ⟨i, ver, n, k, l, e⟩
  rw [h i List.mem_cons_self, renamePtr_back fun j hj => h j (List.mem_cons_of_mem _ hj)]

theorem op_rename_back {ρ σ : Nat → Nat} {op : Op F} (h : ∀ i ∈ op.blocks, σ (ρ i) = i) : (op.rename ρ).rename σ = op := by
  cases op with
  | initEmpty n l o => show Op.initEmpty n (renamePtr σ (renamePtr ρ l)) o = _; rw [renamePtr_back h]
  | initExisting n k l d o => show Op.initExisting n k (renamePtr σ (renamePtr ρ l)) d o = _; rw [renamePtr_back h]
  | _ => rfl

/-- C57, undefined behaviour: a history of calls has undefined behaviour in the one process if and only if it has in the other. -/
theorem C57_defined {cfg : Cfg} {ρ : Nat → Nat} {B : Set Nat} {w v : World} (h : SameProcess ρ B w v) {ops : List (Op F)} (hr : ∀ op ∈ ops, op.Repeatable) (hb : ∀ op ∈ ops, ∀ i ∈ op.blocks, i ∈ B)
    {objs : List ClObj} (ho : ∀ ob ∈ objs, ∀ i ∈ ob.blocks, i ∈ B) :
    runOps cfg ops objs w = none ↔ runOps cfg (ops.map (Op.rename ρ)) (objs.map (ClObj.rename ρ)) v = none := by
  constructor
  · intro hn
    obtain ⟨σ, hs, hback⟩ := h.symm
    by_contra hc
    obtain ⟨⟨⟨codes, objs'⟩, v'⟩, hrun⟩ := Option.ne_none_iff_exists'.1 hc
    have hb' : ∀ op ∈ ops.map (Op.rename ρ), ∀ i ∈ op.blocks, i ∈ ρ '' B := by
      intro op hop i hi
      obtain ⟨op, hmem, rfl⟩ := List.mem_map.1 hop
      have : ∀ {l : Option (Blk Int)}, (∀ i ∈ ptrIds l, i ∈ B) → i ∈ ptrIds (renamePtr ρ l) → i ∈ ρ '' B := by
        intro l hl hi
        cases l with
        | none => cases hi
        | some b =>
          rw [List.mem_singleton.1 hi]
          exact ⟨b.id, hl b.id (List.mem_singleton.2 rfl), rfl⟩
      cases op with
      | initEmpty n l o => exact this (hb _ hmem) hi
      | initExisting n k l d o => exact this (hb _ hmem) hi
      | _ => cases hi
    have ho' : ∀ ob ∈ objs.map (ClObj.rename ρ), ∀ i ∈ ob.blocks, i ∈ ρ '' B := by
      intro ob hob i hi
      obtain ⟨ob, hmem, rfl⟩ := List.mem_map.1 hob
      obtain ⟨id, ver, n, k, l, e⟩ := ob
      rcases List.mem_cons.1 hi with rfl | hi
      · exact ⟨id, ho _ hmem id List.mem_cons_self, rfl⟩
      · cases l with
        | none => cases hi
        | some b =>
          rw [List.mem_singleton.1 hi]
          exact ⟨b.id, ho _ hmem b.id (List.mem_cons_of_mem _ (List.mem_singleton.2 rfl)), rfl⟩
    have hr' : ∀ op ∈ ops.map (Op.rename ρ), op.Repeatable := by
      intro op hop
      obtain ⟨op, hmem, rfl⟩ := List.mem_map.1 hop
      have := hr op hmem
      cases op <;> exact this
    obtain ⟨ρ', w', h1, -⟩ := C57_history hs hr' hb' ho' hrun
    have e1 : (ops.map (Op.rename ρ)).map (Op.rename σ) = ops := by
      rw [List.map_map]
      conv_rhs => rw [← List.map_id ops]
      exact List.map_congr_left fun op hop => op_rename_back fun i hi => hback i (hb op hop i hi)
    have e2 : (objs.map (ClObj.rename ρ)).map (ClObj.rename σ) = objs := by
      rw [List.map_map]
      conv_rhs => rw [← List.map_id objs]
      exact List.map_congr_left fun ob hob => rename_back fun i hi => hback i (ho ob hob i hi)
    rw [e1, e2, hn] at h1
    cases h1
  · intro hn
    by_contra hc
    obtain ⟨⟨⟨codes, objs'⟩, w'⟩, hrun⟩ := Option.ne_none_iff_exists'.1 hc
    obtain ⟨ρ', v', h1, -⟩ := C57_history h hr hb ho hrun
    rw [hn] at h1
    cases h1

/-- C57 for a history from the start: a client without objects, and with its own arrays, if it has any, at other addresses. -/
theorem C57_process {cfg : Cfg} {ρ : Nat → Nat} {U : Set Nat} {w v : World} (h : SameProcess ρ U w v) {ops : List (Op F)} (hr : ∀ op ∈ ops, op.Repeatable) (hb : ∀ op ∈ ops, ∀ i ∈ op.blocks, i ∈ U)
    {codes : List ErrorCode} {objs : List ClObj} {w' : World} (hrun : runOps cfg ops [] w = some ((codes, objs), w')) :
    ∃ objs' v', runOps cfg (ops.map (Op.rename ρ)) [] v = some ((codes, objs'), v') ∧ objs'.map ClObj.contents = objs.map ClObj.contents := by
  obtain ⟨ρ', v', h1, -⟩ := C57_history h hr hb (objs := []) (fun _ h => by cases h) hrun
  refine ⟨_, v', h1, ?_⟩
  rw [List.map_map]
  exact List.map_congr_left fun ob _ => rename_contents ρ' ob

section calls

variable {cfg : Cfg} {w v w' : World} {p q : ClObj} (hw : w.Ordinary) (hv : v.Ordinary) (hf : SameFailures w v) (hp : {p.id} + ptrOwn p.cl.label ≤ w.live) (hq : {q.id} + ptrOwn q.cl.label ≤ v.live)
  (h : p.contents = q.contents)

include hw hv hf hp hq h

/-- C57 for `scc_sc_clustering`: two calls with the same options and data on objects with the same contents, made in different processes or at different times, return the same error code and leave objects with
the same contents. The same is true of calls that fail. -/
theorem C57_sc_clustering {spi : Spi F} (hs : spi.Repeatable) {o : Options F} {e : ErrorCode} {p' : Option ClObj} (hrun : scClustering cfg spi o (some p) w = some ((e, p'), w')) :
    ∃ q' v', scClustering cfg spi o (some q) v = some ((e, q'), v') ∧ q'.map ClObj.contents = p'.map ClObj.contents ∧ v'.clock = v.clock + (w'.clock - w.clock) ∧
      (w'.err = w.err ∧ v'.err = v.err ∨ w'.err = v'.err) ∧ w'.Ordinary ∧ v'.Ordinary ∧ SameFailures w' v' := by
  obtain ⟨ρ, hρ, rfl⟩ := process_of_contents hw hv hf hp hq h
  obtain ⟨⟨e', q'⟩, v', h1, h2, h3, h4⟩ := same_scClustering cfg (hs _).some o (.some (obj_rename hρ fun i hi => hi)) w v _ w' (twin_start (x := True) (c := False) hρ False.elim) hrun
  dsimp only at h3 h4
  subst h3
  have ha := twin_end hρ trivial h2
  refine ⟨q', v', h1, ?_, ha.requests.2, ha.err, ha.process.first, ha.process.second, ha.process.fails⟩
  rw [alike_optObj hρ h4, Option.map_map]
  exact congrArg (Option.map · p') (funext fun ob => rename_contents _ ob)

/-- C57 for `scc_hierarchical_clustering`. -/
theorem C57_hierarchical {hi : HiEnv F} {spi : Spi F} (hs : spi.Repeatable) {S : Nat} {batch : Bool} {e : ErrorCode} {p' : Option ClObj} (hrun : hierarchical cfg hi spi S batch (some p) w = some ((e, p'), w')) :
    ∃ q' v', hierarchical cfg hi spi S batch (some q) v = some ((e, q'), v') ∧ q'.map ClObj.contents = p'.map ClObj.contents ∧ v'.clock = v.clock + (w'.clock - w.clock) ∧
      (w'.err = w.err ∧ v'.err = v.err ∨ w'.err = v'.err) ∧ w'.Ordinary ∧ v'.Ordinary ∧ SameFailures w' v' := by
  obtain ⟨ρ, hρ, rfl⟩ := process_of_contents hw hv hf hp hq h
  obtain ⟨⟨e', q'⟩, v', h1, h2, h3, h4⟩ := same_hierarchical cfg hi (hs _).some S batch (.some (obj_rename hρ fun i hi => hi)) w v _ w' (twin_start (x := True) (c := False) hρ False.elim) hrun
  dsimp only at h3 h4
  subst h3
  have ha := twin_end hρ trivial h2
  refine ⟨q', v', h1, ?_, ha.requests.2, ha.err, ha.process.first, ha.process.second, ha.process.fails⟩
  rw [alike_optObj hρ h4, Option.map_map]
  exact congrArg (Option.map · p') (funext fun ob => rename_contents _ ob)

/-- C57 for `scc_copy_clustering`: copies of objects with the same contents have the same contents. -/
theorem C57_copy {out : Bool} {e : ErrorCode} {p' : Option ClObj} (hrun : copyClustering cfg (some p) out w = some ((e, p'), w')) :
    ∃ q' v', copyClustering cfg (some q) out v = some ((e, q'), v') ∧ q'.map ClObj.contents = p'.map ClObj.contents := by
  obtain ⟨ρ, hρ, rfl⟩ := process_of_contents hw hv hf hp hq h
  obtain ⟨⟨e', q'⟩, v', h1, h2, h3, h4⟩ := same_copyClustering cfg out (.some (obj_rename hρ fun i hi => hi)) w v _ w' (twin_start (x := True) (c := False) hρ False.elim) hrun
  dsimp only at h3 h4
  subst h3
  refine ⟨q', v', h1, ?_⟩
  rw [alike_optObj hρ h4, Option.map_map]
  exact congrArg (Option.map · p') (funext fun ob => rename_contents _ ob)

/-- C57 for calls that only read: a result of the one call is the result of the other. -/
theorem reader_repeats {α : Type} {f : Option ClObj → M α} (hsame : ∀ (T : Twin) {x y : ClObj}, ClObjAlike T x y → T.Same Eq (f (some x)) (f (some y))) {r : α} (hrun : f (some p) w = some (r, w')) :
    ∃ v', f (some q) v = some (r, v') := by
  obtain ⟨ρ, hρ, rfl⟩ := process_of_contents hw hv hf hp hq h
  obtain ⟨b, v', h1, h2, rfl⟩ := hsame _ (obj_rename hρ fun i hi => hi) w v _ w' (twin_start (x := True) (c := False) hρ False.elim) hrun
  exact ⟨v', h1⟩

/-- C57 for `scc_check_clustering`: the same error code and the same verdict. -/
theorem C57_check {o : Options F} {out : Bool} {r : ErrorCode × Option Bool} (hrun : checkClustering cfg (some p) o out w = some (r, w')) : ∃ v', checkClustering cfg (some q) o out v = some (r, v') :=
  reader_repeats hw hv hf hp hq h (f := fun p => checkClustering cfg p o out) (fun T _ _ ha => same_checkClustering cfg o out (.some ha)) hrun

/-- C57 for `scc_get_clustering_stats`: the same error code and the same statistics. -/
theorem C57_stats {spi : Spi F} (hs : spi.Repeatable) {out : Bool} {r : ErrorCode × Option (Stats F)} (hrun : getStats cfg spi (some p) out w = some (r, w')) :
    ∃ v', getStats cfg spi (some q) out v = some (r, v') :=
  reader_repeats hw hv hf hp hq h (f := fun p => getStats cfg spi p out) (fun T _ _ ha => same_getStats cfg (hs T).some out (.some ha)) hrun

/-- C57 for `scc_get_cluster_labels`: the same error code and the same labels. -/
theorem C57_get_labels {len : Nat} {out : Option (Buf Int)} {r : ErrorCode × Option (Buf Int)} (hrun : getLabels cfg (some p) len out w = some (r, w')) :
    ∃ v', getLabels cfg (some q) len out v = some (r, v') :=
  reader_repeats hw hv hf hp hq h (f := fun p => getLabels cfg p len out) (fun T _ _ ha => same_getLabels cfg len out (.some ha)) hrun

/-- C57 for `scc_get_clustering_info`. -/
theorem C57_info {r : ErrorCode × Option (Nat × Nat)} (hrun : getInfo cfg (some p) w = some (r, w')) : ∃ v', getInfo cfg (some q) v = some (r, v') :=
  reader_repeats hw hv hf hp hq h (f := fun p => getInfo cfg p) (fun T _ _ ha => same_getInfo cfg (.some ha)) hrun

end calls

/-- Objects for six points with the same contents in two processes: the hypotheses hold, and the first call has an outcome. -/
example : (sampleWorld [5]).Ordinary ∧ otherWorld.Ordinary ∧ SameFailures (sampleWorld [5]) otherWorld ∧ {lineObj.id} + ptrOwn lineObj.cl.label ≤ (sampleWorld [5]).live ∧
    {40} + ptrOwn lineObj.cl.label ≤ otherWorld.live ∧ lineObj.contents = (⟨40, lineObj.cl⟩ : ClObj).contents ∧
    ∃ cl b w', scClustering sampleCfg (builtinSpi (some lineData)) (lineOpts .closestAssigned .noRadius 0) (some lineObj) (sampleWorld [5]) = some ((.ok, some ⟨5, cl⟩), w') ∧
      cl.numClusters = 2 ∧ cl.label = some b ∧ b.buf.read 6 = some [0, 0, 0, 1, 1, 1] :=
  ⟨⟨by decide, by decide⟩, otherWorld_ordinary, fun _ _ => rfl, by decide, by decide, rfl, line_run (.inr rfl) ⟨nofun, nofun⟩ nofun⟩

/-- The same with requests that fail: the eighth request that the call makes fails in both processes. -/
example : SameFailures { sampleWorld [5] with fails := fun i _ => decide (i = 107) } { otherWorld with fails := fun i _ => decide (i = 507) } ∧
    (hierarchical sampleCfg sampleEnv (builtinSpi (some lineData)) 2 false (some (hiObj 6 0 none)) { sampleWorld [5] with fails := fun i _ => decide (i = 107) }).map (fun r => r.1.1) =
      some .noMemory := by
  refine ⟨fun t c => ?_, by decide +kernel⟩
  show decide (100 + t = 107) = decide (500 + t = 507)
  exact decide_eq_decide.2 ⟨fun h => by omega, fun h => by omega⟩

end Scc
