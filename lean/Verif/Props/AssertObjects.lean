/-
Property C69 for the functions of src/scclust.c and src/utilities.c: in a build with assertions they do the same as in a build without, for all arguments and all states of the heap.
-/
import Verif.Model.AssertObjects
import Verif.Proofs.Assert
import Verif.Props.Clustering

namespace Scc

variable {F : Type} [FloatOps F]

theorem returnChecked_eq {cfg : Cfg} {ob : ClObj} {w : World} (hl : ob.id ∈ w.live) (hi : ob.cl.isInitialized cfg = true) : returnChecked cfg ob w = (pure (.ok, some ob) : M _) w := by
  have h1 : isInitialized cfg (some ob) w = some (true, w) := by
    show (touch [ob.id] >>= fun _ => pure (ob.cl.isInitialized cfg)) w = _
    have h2 : touch [ob.id] w = some ((), w) := by
      unfold touch useK
      rw [if_pos (by simpa using hl)]; rfl
    show (touch [ob.id] w).bind _ = _
    rw [h2, hi]; rfl
  show (isInitialized cfg (some ob) w).bind _ = _
  rw [h1]
  show ((asrtM (true = true) >>= fun _ => pure (ErrorCode.ok, some ob)) : M _) w = _
  rw [asrtM_bind rfl]

/-- After a request for memory the block is live. -/
theorem alloc_congr {α β : Type} {init : Buf α} {f g : Option (Blk α) → M β} {w : World} (hn : ∀ w', f none w' = g none w')
    (hs : ∀ b w', w'.live = {b.id} + w.live → f (some b) w' = g (some b) w') : (alloc init >>= f) w = (alloc init >>= g) w := by
  show ((alloc init : M _) w).bind _ = ((alloc init : M _) w).bind _
  unfold alloc
  split
  · exact hn _
  · exact hs _ _ rfl

theorem useK_congr {α β : Type} {ids : List Nat} {k : Option α} {f g : α → M β} {w : World} (h : ∀ a, f a w = g a w) : (useK ids k >>= f) w = (useK ids k >>= g) w := by
  show (useK ids k w).bind _ = (useK ids k w).bind _
  unfold useK
  split
  · cases k with
    | none => rfl
    | some a => exact h a
  · rfl

theorem initialized_new {cfg : Cfg} {n k : Nat} {l : Option (Blk Int)} {e : Bool} (h1 : n ≠ 0) (h2 : ¬ cfg.pointMax < n) (h3 : ¬ cfg.clabelMax < k) (h4 : 0 < k → l.isSome = true) :
    (Clustering.isInitialized cfg ⟨clusteringVersion, n, k, l, e⟩) = true := by
  unfold Clustering.isInitialized
  rw [if_neg (by simp), if_neg h1, if_neg h2, if_neg h3, if_neg]
  rintro ⟨h5, h6⟩
  have := h4 h5
  cases l with
  | none => simp at this
  | some b => simp at h6

theorem initEmptyDbg_eq (cfg : Cfg) (n : Nat) (labels : Option (Blk Int)) (hasOut : Bool) : initEmptyDbg cfg n labels hasOut = initEmpty cfg n labels hasOut := by
  funext w
  unfold initEmptyDbg initEmpty
  split
  · rfl
  split
  · rfl
  rename_i h1
  split
  · rfl
  rename_i h2
  split
  · rfl
  refine alloc_congr (fun _ => rfl) fun b w' hw => ?_
  exact returnChecked_eq (by rw [hw]; simp) (initialized_new h1 h2 (by omega) (by omega))

theorem initExistingDbg_eq (cfg : Cfg) (n k : Nat) (labels : Option (Blk Int)) (deep hasOut : Bool) : initExistingDbg cfg n k labels deep hasOut = initExisting cfg n k labels deep hasOut := by
  funext w
  unfold initExistingDbg initExisting
  split
  · rfl
  split
  · rfl
  rename_i h1
  split
  · rfl
  rename_i h2
  split
  · rfl
  split
  · rfl
  split
  · rfl
  rename_i h3
  split
  · rfl
  split
  · rfl
  refine alloc_congr (fun _ => rfl) fun b w' hw => ?_
  dsimp only
  split
  · refine alloc_congr (fun _ => rfl) fun d w2 hw2 => ?_
    dsimp only
    refine useK_congr fun buf => ?_
    exact returnChecked_eq (by rw [hw2, hw]; simp) (initialized_new h1 h2 h3 fun _ => rfl)
  · exact returnChecked_eq (by rw [hw]; simp) (initialized_new h1 h2 h3 fun _ => rfl)

/-- What a clustering object that passes the check satisfies. -/
theorem Clustering.isInitialized_facts {cfg : Cfg} {c : Clustering} (h : c.isInitialized cfg = true) : c.n ≠ 0 ∧ ¬ cfg.pointMax < c.n ∧ ¬ cfg.clabelMax < c.numClusters := by
  unfold Clustering.isInitialized at h
  split at h
  · cases h
  split at h
  · cases h
  rename_i h1
  split at h
  · cases h
  rename_i h2
  split at h
  · cases h
  rename_i h3
  exact ⟨h1, h2, h3⟩

theorem isInitialized_same {β : Type} {cfg : Cfg} {p : Option ClObj} {f g : Bool → M β} {w : World} (h0 : f false w = g false w)
    (h1 : ∀ ob, p = some ob → ob.cl.isInitialized cfg = true → f true w = g true w) : (isInitialized cfg p >>= f) w = (isInitialized cfg p >>= g) w := by
  cases p with
  | none => exact h0
  | some ob =>
    show ((useK [ob.id] (some ()) >>= fun _ => pure (ob.cl.isInitialized cfg)) >>= f) w = ((useK [ob.id] (some ()) >>= fun _ => pure (ob.cl.isInitialized cfg)) >>= g) w
    simp only [bind_assoc, pure_bind]
    refine useK_congr fun _ => ?_
    cases hi : ob.cl.isInitialized cfg with
    | false => exact h0
    | true => exact h1 ob rfl hi

theorem copyClusteringDbg_eq (cfg : Cfg) (p : Option ClObj) (hasOut : Bool) : copyClusteringDbg cfg p hasOut = copyClustering cfg p hasOut := by
  funext w
  unfold copyClusteringDbg copyClustering
  split
  · rfl
  refine isInitialized_same (by cases p <;> rfl) fun ob hp hi => ?_
  subst hp
  obtain ⟨h1, h2, h3⟩ := Clustering.isInitialized_facts hi
  dsimp only
  refine alloc_congr (fun _ => rfl) fun b w' hw => ?_
  dsimp only
  split
  · refine alloc_congr (fun _ => rfl) fun d w2 hw2 => ?_
    dsimp only
    refine useK_congr fun buf => ?_
    exact returnChecked_eq (by rw [hw2, hw]; simp) (initialized_new h1 h2 h3 fun _ => rfl)
  · rename_i h4
    exact returnChecked_eq (by rw [hw]; simp) (initialized_new h1 h2 h3 fun h => absurd h h4)

theorem checkClusteringDbg_eq (cfg : Cfg) (p : Option ClObj) (o : Options F) (hasOut : Bool) : checkClusteringDbg cfg p o hasOut = checkClustering cfg p o hasOut := by
  funext w
  unfold checkClusteringDbg checkClustering
  split
  · rfl
  refine isInitialized_same (by cases p <;> rfl) fun ob hp hi => ?_
  subst hp
  obtain ⟨h1, h2, h3⟩ := Clustering.isInitialized_facts hi
  dsimp only
  rw [asrtM_bind (by omega)]

theorem statsMainDbg_eq {cfg : Cfg} {cl : Clustering} (h : cl.n ≤ cfg.pointMax) (spi : Spi F) : statsMainDbg cfg spi cl = statsMain cfg spi cl := by
  have h1 : ∀ st sizes store ends scratch, statsRunDbg cfg spi cl st sizes store ends scratch = statsRun cfg spi cl st sizes store ends scratch := by
    intro st sizes store ends scratch
    unfold statsRunDbg statsRun
    refine bind_congr fun e => ?_
    rw [asrtM_bind h]
    rfl
  have h2 : ∀ st sizes, statsArraysDbg cfg spi cl st sizes = statsArrays cfg spi cl st sizes := by
    intro st sizes
    unfold statsArraysDbg statsArrays
    simp only [h1]
    rfl
  unfold statsMainDbg statsMain
  simp only [h2]
  rfl

theorem getStatsDbg_eq (cfg : Cfg) (spi : Spi F) (p : Option ClObj) (hasOut : Bool) : getStatsDbg cfg spi p hasOut = getStats cfg spi p hasOut := by
  funext w
  unfold getStatsDbg getStats
  split
  · rfl
  refine isInitialized_same (by cases p <;> rfl) fun ob hp hi => ?_
  subst hp
  obtain ⟨h1, h2, h3⟩ := Clustering.isInitialized_facts hi
  dsimp only
  rw [statsMainDbg_eq (by omega)]
  rfl

/-- C69 for clustering objects, the check of a clustering and the statistics: all calls do the same in a build with assertions. -/
theorem C69_objects (cfg : Cfg) :
    (∀ n labels hasOut, initEmptyDbg cfg n labels hasOut = initEmpty cfg n labels hasOut) ∧
    (∀ n k labels deep hasOut, initExistingDbg cfg n k labels deep hasOut = initExisting cfg n k labels deep hasOut) ∧
    (∀ p hasOut, copyClusteringDbg cfg p hasOut = copyClustering cfg p hasOut) ∧
    (∀ p (o : Options F) hasOut, checkClusteringDbg cfg p o hasOut = checkClustering cfg p o hasOut) ∧
    (∀ (spi : Spi F) p hasOut, getStatsDbg cfg spi p hasOut = getStats cfg spi p hasOut) :=
  ⟨initEmptyDbg_eq cfg, initExistingDbg_eq cfg, copyClusteringDbg_eq cfg, checkClusteringDbg_eq cfg, getStatsDbg_eq cfg⟩

/-- An existing clustering of three points with a copy of the labels. -/
example : ((initExistingDbg sampleCfg 3 2 (some ⟨7, Buf.ofList [0, 1, 0]⟩) true true (sampleWorld [7])).map fun r => (r.1.1, r.1.2.map fun o => (o.cl.n, o.cl.numClusters))) = some (.ok, some (3, 2)) := by
  decide +kernel

end Scc
