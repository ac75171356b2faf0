/-
What happens when the requests fail that the code does not check.
-/
import Verif.Proofs.Checked
import Verif.Proofs.BatchRun
import Verif.Proofs.RunFacts

set_option linter.unusedSimpArgs false
set_option linter.unusedVariables false

namespace Scc

variable {F : Type} [FloatOps F]

theorem bind_run {α β : Type} {x : M α} {g : α → M β} {w w' : World} {a : α} (h : x w = some (a, w')) : (x >>= g) w = g a w' := by
  show (StateT.bind x g) w = _
  unfold StateT.bind
  rw [h]; rfl

theorem bind_bind_run {α β γ : Type} {x : M α} {y : M β} {g : β → M α} {h : α → M γ} {w w' : World} (hx : x w = (y >>= g) w') :
    (x >>= h) w = (y >>= fun b => g b >>= h) w' := by
  rw [← bind_assoc]
  show StateT.bind _ _ _ = StateT.bind _ _ _
  unfold StateT.bind
  rw [hx]

theorem Checked.run {α : Type} {x : M α} (hx : Checked x) {w : World} (hw : w.NoFail) {Q : α → World → Prop} (h : WpM x w Q) :
    ∃ a w', Q a w' ∧ w'.fails = w.fails ∧ w.clock ≤ w'.clock ∧ ∀ f, (∀ i < w'.clock, f i true = false) → x (w.withFails f) = some (a, w'.withFails f) := by
  obtain ⟨a, w', h1, h2⟩ := h
  obtain ⟨k1, k2, k3⟩ := hx w hw a w' h1
  exact ⟨a, w', h2, k1, k2, k3⟩

theorem World.NoFail.congr {w w' : World} (h : w'.fails = w.fails) (hw : w.NoFail) : w'.NoFail := fun i c => by rw [h]; exact hw i c

theorem World.NoFail.unchecked {w : World} (hw : w.NoFail) : w.UncheckedOk := fun i => hw i false

theorem SysCause.not_noFail {w : World} {big : Prop} {e : ErrorCode} (hw : w.NoFail) (hb : ¬ big) : ¬ SysCause w big False e := by
  rintro (⟨-, h⟩ | ⟨-, h⟩ | ⟨-, h | h⟩)
  · exact hb h
  · exact h hw
  · exact h hw
  · exact h

/-- After the checks, an accepted call continues with the algorithm. -/
theorem scClustering_eq {cfg : Cfg} {spi : Spi F} {o : Options F} {ob : ClObj} {P : List Nat} {lab c : Nat → Nat} {w : World} (hl : ob.id ∈ w.live)
    (ha : OptionArrays ob.cl.n o P lab c) (hacc : Accepts cfg spi.valid spi.numPoints o ob.cl P) : scClustering cfg spi o (some ob) w = scAccepted cfg spi o ob w := by
  have h1 : isInitialized cfg (some ob) w = some (true, w) := by
    unfold isInitialized
    have : touch [ob.id] w = some ((), w) := by
      unfold touch useK
      rw [if_pos (by simpa using hl)]
      rfl
    dsimp only
    rw [bind_run this]
    show some (_, _) = _
    rw [hacc.initialized]
  unfold scClustering
  rw [bind_run h1]
  dsimp only
  rw [if_neg (by simp [hacc.valid]), if_neg (by simpa using hacc.points)]
  obtain ⟨e, w1, h2, f1, f2, h3⟩ := checkClusterOptions_spec ha w
  rcases h3 with ⟨rfl, rfl, hv⟩ | ⟨he, herr, hv, hc⟩
  · rw [bind_run h2, if_neg (by simp), if_neg (by simpa using hacc.empty)]
    rfl
  · exact absurd hacc.options hv

section
variable {cfg : Cfg} {spi : Spi F} {A : Criterion F} {dist : Nat → Nat → F} {o : Options F} {ob : ClObj} {P : List Nat} {lab c : Nat → Nat} {w : World} {m : SeedMethod}
  (hs : SpiOk spi ob.cl.n A dist False) (hspi : SpiChecked spi) (hc : CallOk cfg o ob P lab c w)
  (hacc : Accepts cfg spi.valid spi.numPoints o ob.cl P) (hfe : Solvable cfg A dist ob.cl.n o m P lab c) (hw : w.NoFail)

include hc in
theorem CallOk.mem_id : ob.id ∈ w.live := Multiset.mem_of_le hc.live (by simp)

include hacc in
theorem Accepts.le_pointMax : ob.cl.n ≤ cfg.pointMax := (isInitialized_iff.1 hacc.initialized).2.2.1

include hs hspi hc hacc hfe hw in
/-- The digraph is built when the requests that the code checks succeed. -/
theorem build_run : ∃ (d : Digraph) (w1 : World) (rows : Nat → List Nat), d.n = ob.cl.n ∧ d.Repr cfg rows ∧ NngStored cfg A ob.cl.n o P lab c rows ∧ (∃ v < ob.cl.n, rows v ≠ []) ∧ w1.NoFail ∧ w1.live = d.own + w.live ∧
    w.clock ≤ w1.clock ∧ ∀ f, (∀ i < w1.clock, f i true = false) → buildNng cfg spi ob.cl.n o (w.withFails f) = some (.ok d, w1.withFails f) := by
  obtain ⟨r, w1, h1, h2, h3, h4⟩ := (Checked.buildNng hspi).run hw (buildNng_spec (cfg := cfg) hs hacc.options hc.arrays (hc.limits hacc.options) hacc.le_pointMax (w := w))
  cases r with
  | error e =>
    exfalso
    rcases h1.cause with h | ⟨-, h⟩ | ⟨-, h, h'⟩
    · exact SysCause.not_noFail hw (by have := hfe.arcs; omega) h
    · exact hfe.seeds h
    · have := hfe.types h; omega
  | ok d =>
    obtain ⟨k1, k2, k3, rows, k4, k5, k6⟩ := h1
    exact ⟨d, w1, rows, k3, k4, k5, k6, hw.congr h2, k2, h3, h4⟩

/-! ### The exclusion methods use a freed block -/

theorem alloc_unchecked_fail {α : Type} {b : Buf α} {w : World} {f : Nat → Bool → Bool} (hf : f w.clock false = true) :
    alloc b false (w.withFails f) = some (none, { w.withFails f with clock := w.clock + 1 }) := by
  unfold alloc
  rw [if_pos (show (w.withFails f).fails (w.withFails f).clock false = true from hf)]
  rfl

theorem alloc_ok {α : Type} {b : Buf α} {ch : Bool} {w : World} {f : Nat → Bool → Bool} (hf : f w.clock ch = false) :
    alloc b ch (w.withFails f) = some (some ⟨w.fresh, b⟩, ({ w with clock := w.fresh + 1, live := {w.fresh} + w.live } : World).withFails f) := by
  unfold alloc
  rw [if_neg (show ¬ (w.withFails f).fails (w.withFails f).clock ch = true by show ¬ f w.clock ch = true; rw [hf]; decide)]
  rfl

theorem fresh_not_mem {w : World} : w.fresh ∉ w.live := fun hm => lt_irrefl _ (World.lt_fresh hm)

theorem findSeedsExclusion_undef {nng : Digraph} {u : Bool} {cap : Nat} {w : World} {f : Nat → Bool → Bool} (hf : OnlyUncheckedFail f) :
    findSeedsExclusion cfg nng u cap (w.withFails f) = none := by
  unfold findSeedsExclusion
  rw [bind_run (alloc_ok (hf _).1)]
  dsimp only
  rw [bind_run (alloc_unchecked_fail (hf _).2)]
  have h : ∀ w' : World, w'.live = {w.fresh} + w.live → ∃ w2, w2.live = w.live ∧ noIndexArray (⟨w.fresh, Buf.raw nng.n⟩ : Blk Bool) none w' = some ((), w2) := by
    intro w' hl
    unfold noIndexArray
    have h1 : freeId w.fresh w' = some ((), { w' with live := w'.live.erase w.fresh }) := by
      unfold freeId
      rw [if_pos (by rw [hl]; simp)]
    refine ⟨_, ?_, by dsimp only; rw [bind_run h1]; rfl⟩
    show w'.live.erase w.fresh = _
    rw [hl]; simp
  obtain ⟨w2, h1, h2⟩ := h { ({ w with clock := w.fresh + 1, live := {w.fresh} + w.live } : World).withFails f with clock := w.fresh + 1 + 1 } rfl
  rw [bind_run h2]
  refine none_bind_left ?_
  unfold useK
  rw [if_neg]
  intro hx
  have := hx w.fresh (by simp)
  rw [h1] at this
  exact fresh_not_mem this

include hs hspi hc hacc hfe hw in
theorem exclusion_undef (hm : o.seedMethod = .method m) (he : m.IsExclusion) {f : Nat → Bool → Bool} (hf : OnlyUncheckedFail f) :
    scClustering cfg spi o (some ob) (w.withFails f) = none := by
  obtain ⟨d, w1, rows, -, -, -, -, -, -, -, hb⟩ := build_run hs hspi hc hacc hfe hw
  rw [scClustering_eq (w := w.withFails f) (by exact hc.mem_id) hc.arrays hacc]
  unfold scAccepted
  rw [hm]
  dsimp only
  refine none_bind_left ?_
  unfold clusterByNng
  rw [bind_run (hb f fun i _ => (hf i).1)]
  dsimp only
  refine none_bind_left ?_
  unfold clusteringFromNng
  refine none_bind_left ?_
  unfold findSeeds
  refine none_bind_left ?_
  rcases he with rfl | rfl <;> exact findSeedsExclusion_undef hf

/-! ### Up to the assignment stage -/

theorem Checked.wp {α : Type} {x : M α} (hx : Checked x) {w : World} (hw : w.NoFail) {f : Nat → Bool → Bool} (hf : ∀ i, f i true = false) {Q : α → World → Prop} (h : WpM x w Q) :
    WpM x (w.withFails f) fun a w' => ∃ w0, w' = w0.withFails f ∧ w0.NoFail ∧ Q a w0 := by
  obtain ⟨a, w', h1, h2, h3, h4⟩ := hx.run hw h
  exact ⟨a, w'.withFails f, h4 f fun i _ => hf i, w', rfl, hw.congr h2, h1⟩

/-- What is done after the assignment stage. -/
def finishRun (sr : SeedResult) (r : ErrorCode × Clustering × Digraph) : M (ErrorCode × Clustering) := do
  freePtr sr.seeds
  let _ ← freeDigraph r.2.2
  pure (r.1, r.2.1)

/-- The state when the assignment stage starts. -/
structure Ready (cfg : Cfg) (A : Criterion F) (o : Options F) (ob : ClObj) (m : SeedMethod) (P : List Nat) (lab c : Nat → Nat) (M : Multiset Nat)
    (d : Digraph) (rows : Nat → List Nat) (order : List Nat) (sr : SeedResult) (lb : Blk Int) (w : World) : Prop where
  noFail : w.NoFail
  points : d.n = ob.cl.n
  repr : d.Repr cfg rows
  nng : NngStored cfg A ob.cl.n o P lab c rows
  perm : order.Perm (List.range ob.cl.n)
  holds : sr.Holds (greedySeeds rows order)
  cap : (greedySeeds rows order).length ≤ cfg.clabelMax
  nonempty : greedySeeds rows order ≠ []
  room : ob.cl.n ≤ lb.buf.len
  live : w.live = d.own + (ptrOwn sr.seeds + {lb.id} + M)

include hs hspi hc hacc hfe hw in
theorem ready (hm : o.seedMethod = .method m) (he : ¬ m.IsExclusion) {f : Nat → Bool → Bool} (hf : ∀ i, f i true = false) :
    ∃ (M : Multiset Nat) (d : Digraph) (rows : Nat → List Nat) (order : List Nat) (sr : SeedResult) (lb : Blk Int) (w3 : World) (r1 r2 : RadiusMethod × F),
      w.live = ptrOwn ob.cl.label + M ∧ ob.id ∈ M ∧ Ready cfg A o ob m P lab c M d rows order sr lb w3 ∧
      (if decide (r1.1 = .useSupplied) = true then some r1.2 else none) =
        stageRadius o o.primaryMethod o.primaryRadius o.primarySupplied (seedEstimate dist rows (greedySeeds rows order)) ∧
      clusterByNng cfg spi ob.cl o m (w.withFails f) = (makeClusters cfg spi { ob.cl with label := some lb, external := ob.cl.external && ob.cl.label.isSome } sr d (decide (o.numTypes < 2)) o.primaryMethod
          (decide (r1.1 = RadiusMethod.useSupplied)) r1.2 o.lenPrimary o.primary o.secondaryMethod (decide (r2.1 = RadiusMethod.useSupplied)) r2.2 >>=
          finishRun sr) (w3.withFails f) := by
  obtain ⟨M0, hM0⟩ := Multiset.le_iff_exists_add.1 hc.live
  have hlive0 : w.live = ptrOwn ob.cl.label + ({ob.id} + M0) := by rw [hM0]; abel
  obtain ⟨d, w1, rows, hn, hr, hnng, hne, hw1, hl1, -, hb⟩ := build_run hs hspi hc hacc hfe hw
  have hv := hacc.options
  have hfa := hnng.facts hv.size_two
  have hngl : ∀ i ∈ d.ids, i ∈ w1.live := fun i hi => by rw [hl1]; exact Multiset.mem_add.2 (Or.inl (mem_ids_iff_own.1 hi))
  obtain ⟨r, w2, h2, f2, -, e2⟩ := (Checked.findSeeds he).run hw1 (findSeeds_spec m (1 + ob.cl.n / o.sizeConstraint) hr (fun _ v hv => (hfa.nodup v (hn ▸ hv)).1) hngl
    (fun _ => hw1.unchecked))
  have hw2 := hw1.congr f2
  cases r with
  | error e =>
    exfalso
    obtain ⟨leak, h2, -⟩ := h2
    rcases h2.cause with ⟨rfl, hb⟩ | ⟨rfl, hb⟩
    · rw [hn] at hb
      rcases hb with hb | hb
      · exact he hb.1
      · have := hfe.labels; omega
    · exact hb hw1
  | ok sr =>
    obtain ⟨order, hord, hperm, hinv⟩ := h2
    rw [hn] at hperm hord
    have hrow := seedRows_of_nng hfa hperm
    have hne' : greedySeeds rows order ≠ [] := by
      obtain ⟨v, hv1, hv2⟩ := hne
      exact greedySeeds_ne_nil (hperm.mem_iff.2 (List.mem_range.2 hv1)) hv2
    have hngl2 : ∀ i ∈ d.ids, i ∈ w2.live := fun i hi => by rw [hinv.live]; exact Multiset.mem_add.2 (Or.inr (hngl i hi))
    obtain ⟨r, w3, h3, f3, -, e3⟩ := (Checked.estimateRadii hspi).run hw2 (estimateRadii_spec hs hv.seedRadius.1 hinv.holds hr hn hrow hinv.live hngl2)
    have hw3 := hw2.congr f3
    cases r with
    | error e =>
      exfalso
      rcases h3.cause with h | ⟨-, h⟩
      · exact SysCause.not_noFail hw2 (by simp) h
      · exact hfe.estimate rows order hnng hord h
    | ok rr =>
      obtain ⟨r1, r2⟩ := rr
      obtain ⟨-, l3, -, q1, q2⟩ := h3
      have hlive3 : w3.live = ptrOwn ob.cl.label + (ptrOwn sr.seeds + d.own + ({ob.id} + M0)) := by
        rw [l3, hinv.live, hl1, hlive0]; abel
      obtain ⟨⟨ok, cl3⟩, w4, h4, f4, -, e4⟩ := Checked.ensureLabels.run hw3 (ensureLabels_spec hlive3)
      obtain ⟨-, h4⟩ := h4
      dsimp only at h4
      rcases h4 with ⟨-, h4, -⟩ | ⟨rfl, lb, rfl, h5, h6, h7⟩
      · exact absurd hw3 h4
      · refine ⟨{ob.id} + M0, d, rows, order, sr, lb, w4, r1, r2, hlive0, by simp, ⟨hw3.congr f4, hn, hr, hnng, hperm, hinv.holds, hinv.cap, hne', ?_, by rw [h5]; abel⟩, q1, ?_⟩
        · cases hl : ob.cl.label with
          | none => rw [h7 hl]
          | some lb' => rw [← h6 lb' hl]; exact hc.room lb' hl
        · unfold clusterByNng
          rw [bind_run (hb f fun i _ => hf i)]
          dsimp only
          have hk : clusteringFromNng cfg spi ob.cl d o m (w1.withFails f) = (makeClusters cfg spi { ob.cl with label := some lb, external := ob.cl.external && ob.cl.label.isSome } sr d (decide (o.numTypes < 2)) o.primaryMethod
                (decide (r1.1 = RadiusMethod.useSupplied)) r1.2 o.lenPrimary o.primary o.secondaryMethod (decide (r2.1 = RadiusMethod.useSupplied)) r2.2 >>=
                fun r => freePtr sr.seeds >>= fun _ => pure r) (w4.withFails f) := by
            unfold clusteringFromNng
            rw [bind_run (e2 f fun i _ => hf i)]
            dsimp only
            rw [bind_run (e3 f fun i _ => hf i)]
            dsimp only
            rw [bind_run (e4 f fun i _ => hf i)]
            rfl
          have hfin : finishRun sr = fun b => (freePtr sr.seeds >>= fun _ => pure b) >>= fun x : ErrorCode × Clustering × Digraph => (freeDigraph x.2.2 >>= fun _ => pure (x.1, x.2.1)) := by
            funext b
            unfold finishRun
            simp only [bind_assoc, pure_bind]
          rw [hfin]
          exact bind_bind_run hk

/-! ### Points are left over when the size constraint does not divide the number of points -/

omit [FloatOps F] in
theorem SizeNng.length_eq {n S : Nat} {R : Option F} {rows : Nat → List Nat} (h : SizeNng A n S R P rows) (hS : 2 ≤ S) {v : Nat} (hv : v < n) (hne : rows v ≠ []) :
    (rows v).length + 1 = S := by
  obtain ⟨ans, h1, h2⟩ := h
  rw [h2 v hv] at hne ⊢
  cases ha : ans v with
  | none => simp [ansRows, ha, nbrs] at hne
  | some l =>
    obtain ⟨r1, r2, -⟩ := h1.row v l ha
    have e : ansRows ans v = l := by simp [ansRows, ha]
    rw [e, length_nbrs r2]; omega

theorem left_over {n S : Nat} {R : Option F} {rows₀ rows : Nat → List Nat} {order : List Nat} (h : SizeNng A n S R P rows₀) (he : ∀ v, rows v = stored cfg (rows₀ v)) (hS : 2 ≤ S)
    (hp : order.Perm (List.range n)) (hd : ¬ S ∣ n) : (labelled n (seedLab rows (greedySeeds rows order))).length ≠ n := by
  intro hall
  have hf := (h.facts hS).stored he
  have hok := seedsOk_of_nng hf hp
  have h1 : (List.range n).Perm ((greedySeeds rows order).flatMap (closedNbr rows)) := by
    rw [List.perm_ext_iff_of_nodup List.nodup_range]
    · intro v
      rw [List.mem_range, List.mem_flatMap]
      constructor
      · intro hv
        obtain ⟨i, hi⟩ := Option.isSome_iff_exists.1 (labelled_full hall v hv)
        obtain ⟨s, hs, hx⟩ := seedLab_some hi
        exact ⟨s, List.mem_of_getElem? hs, hx⟩
      · rintro ⟨s, hs, hx⟩
        rcases List.mem_cons.1 hx with rfl | hx
        · exact hok.range _ hs
        · exact hf.range s (hok.range s hs) v hx
    · rw [List.nodup_flatMap]
      refine ⟨fun s hs => ?_, hok.disjoint.imp fun h => List.disjoint_left.2 fun {x} hx => h x hx⟩
      obtain ⟨n1, n2⟩ := hf.nodup s (hok.range s hs)
      exact List.nodup_cons.2 ⟨n2, n1⟩
  have h2 := h1.length_eq
  rw [List.length_range, List.length_flatMap] at h2
  have h3 : (greedySeeds rows order).map (fun s => (closedNbr rows s).length) = (greedySeeds rows order).map fun _ => S := by
    refine List.map_congr_left fun s hs => ?_
    have := h.length_eq hS (hok.range s hs) (fun h0 => greedySeeds_arcs (rows := rows) s hs (by rw [he, h0, stored_nil]))
    simpa [closedNbr, he] using this
  rw [h3] at h2
  simp at h2
  exact hd ⟨_, by rw [h2]; ring⟩

/-! ### Points are silently left unassigned -/

theorem wpM_withFails_err {α : Type} {x : M α} {w : World} {Q : α → World → Prop} (h : WpM x w Q) : ∃ a w', x w = some (a, w') ∧ Q a w' := h

include hs hspi hc hacc hfe hw in
theorem anyNeighbor_lost (hm : o.seedMethod = .method m) (he : ¬ m.IsExclusion) (hT : o.numTypes < 2) (hd : ¬ o.sizeConstraint ∣ ob.cl.n)
    (h1 : o.primaryMethod = .anyNeighbor) (h2 : o.secondaryMethod = .ignore) {f : Nat → Bool → Bool} (hf : OnlyUncheckedFail f) :
    ∃ cl' b w', scClustering cfg spi o (some ob) (w.withFails f) = some ((.ok, some ⟨ob.id, cl'⟩), w') ∧ w'.err.code = .noMemory ∧ cl'.label = some b ∧ 0 < cl'.numClusters ∧
      ∃ v < ob.cl.n, b.buf.get v = some cfg.na := by
  obtain ⟨M, d, rows, order, sr, lb, w3, r1, r2, hM, hid, hr, -, hrun⟩ := ready hs hspi hc hacc hfe hw hm he fun i => (hf i).1
  rw [scClustering_eq (w := w.withFails f) (by exact hc.mem_id) hc.arrays hacc]
  unfold scAccepted
  rw [hm]
  dsimp only
  obtain ⟨rows₀, hn₀, hst⟩ := hr.nng
  have hnng : SizeNng A ob.cl.n o.sizeConstraint (seedLimit o) P rows₀ := by
    rcases hn₀ with h | h
    · exact h.2
    · omega
  have hS := hacc.options.size_two
  have hfa := (hnng.facts hS).stored hst
  have hok := seedsOk_of_nng hfa hr.perm
  have hleft := left_over hnng hst hS hr.perm hd
  have key : WpM (clusterByNng cfg spi ob.cl o m) (w.withFails f) fun r w' => r.1 = .ok ∧ w'.err.code = .noMemory ∧ w'.live = {lb.id} + M ∧ 0 < r.2.numClusters ∧
      ∃ b, r.2.label = some b ∧ ∃ v < ob.cl.n, b.buf.get v = some cfg.na := by
    unfold WpM
    rw [hrun]
    change WpM _ _ _
    rw [wpM_bind]
    unfold makeClusters
    rw [wpM_bind, wpM_useK]
    obtain ⟨sb, hsb1, -, hsb2⟩ := hr.holds.block
    have hcsr : Csr ob.cl.n (ptrBuf d.head) (ptrBuf d.tail) rows := hr.points ▸ hr.repr.csr
    refine ⟨?_, ?_⟩
    · intro i hi
      show i ∈ w3.live
      rw [hr.live]
      simp only [List.mem_append, ptrIds, List.mem_singleton, hsb1] at hi
      simp only [Multiset.mem_add, Multiset.mem_singleton, hsb1, ptrOwn_some]
      rcases hi with (rfl | hi) | rfl
      · exact Or.inr (Or.inl (Or.inl rfl))
      · exact Or.inl (mem_ids_iff_own.1 hi)
      · exact Or.inr (Or.inl (Or.inr rfl))
    dsimp only
    rw [hr.holds.count, hsb1]
    refine (assignSeeds_spec hc.config (labels := lb.buf) (sb := sb.buf) hcsr hsb2 hok hfa.nodup hr.cap hr.room).mono ?_
    rintro ⟨l, num⟩ ⟨a1, a2, a3⟩
    dsimp only at a1 a2 a3 ⊢
    subst a3
    rw [h1, h2, if_neg (by simp [assignDone, hleft]), wpM_bind]
    unfold initAssigned
    rw [if_neg (by decide), wpM_pure]
    dsimp only
    rw [if_pos (Or.inl rfl), wpM_bind]
    unfold assignByNng
    rw [wpM_bind]
    refine ⟨_, _, alloc_unchecked_fail (hf _).2, ?_⟩
    dsimp only
    rw [wpM_bind]
    refine wpM_mkErr fun w5 k1 k2 k3 => ?_
    rw [wpM_pure]
    dsimp only
    rw [if_pos (by simp [assignDone, afterNng]), wpM_bind]
    refine wpM_freePtr w5.live (by simp) fun w6 l1 l2 l3 => ?_
    rw [wpM_pure]
    unfold finishRun
    rw [wpM_bind]
    have hl5 : w5.live = d.own + (ptrOwn sr.seeds + {lb.id} + M) := by rw [k2]; exact hr.live
    refine wpM_freePtr (d.own + ({lb.id} + M)) (by rw [l2, hl5]; abel) fun w7 m1 m2 m3 => ?_
    rw [wpM_bind]
    dsimp only
    refine freeDigraph_spec ({lb.id} + M) m2 fun w8 n1 n2 n3 => ?_
    rw [wpM_pure]
    refine ⟨rfl, by rw [n3, m3, l3, k3], n2, List.length_pos_iff.2 hr.nonempty, ⟨lb.id, l⟩, rfl, ?_⟩
    by_contra hno
    apply hleft
    have hall : ∀ v ∈ List.range ob.cl.n, (seedLab rows (greedySeeds rows order) v).isSome = true := by
      intro v hv
      by_contra hvn
      refine hno ⟨v, List.mem_range.1 hv, ?_⟩
      rw [a2 v (List.mem_range.1 hv)]
      have : seedLab rows (greedySeeds rows order) v = none := by simpa using hvn
      rw [this]
      rfl
    unfold labelled
    rw [List.filter_eq_self.2 hall, List.length_range]
  obtain ⟨⟨ec, cl'⟩, w', e1, e2, e3, e4, e5, b, e6, e7⟩ := key
  dsimp only at e2 e5 e6
  subst e2
  rw [bind_run e1]
  refine ⟨cl', b, w', ?_, e3, e6, e5, e7⟩
  have : touch [ob.id] w' = some ((), w') := by
    unfold touch useK
    rw [if_pos (by simp [e4, hid])]
    rfl
  dsimp only
  rw [bind_run this]
  rfl

/-! ### The search writes to a null array -/

theorem nnSearch_null {ds : DataSet F} {so : SearchObj} {lenQ : Nat} {queries : Option Arr} {radius : F} {out : OutQ} {w : World} {f : Nat → Bool → Bool} (hf : ∀ i, f i true = false)
    (hq : 0 < lenQ) : nnSearch ds so lenQ queries 1 false radius out (Buf.raw 0) (w.withFails f) = none := by
  unfold nnSearch
  rw [bind_run (alloc_ok (hf _))]
  dsimp only
  refine none_bind_left (useK_none ?_)
  unfold nnSearchK
  have h0 : ∀ q (dl : Buf F), nnQuery ds so.len so.search q 1 false (FloatOps.mul radius radius) (0 * 1) dl (Buf.raw 0) = none := by
    intro q dl
    unfold nnQuery fillFirst
    rw [if_neg (by decide)]
    rw [forLt_none (by decide)]
    · rfl
    · dsimp only
      cases idxGet so.search 0 with
      | none => rfl
      | some j =>
        cases hd : sqDist ds q j with
        | none => simp [hd]
        | some x =>
          simp only [hd, Option.bind_eq_bind, Option.bind_some]
          unfold addDist
          cases dl.set 0 x with
          | none => rfl
          | some dl' => simp [Buf.set, Buf.raw]
  dsimp only
  rw [forLt_none hq]
  · rfl
  · dsimp only
    cases queryAt queries out (outQBuf queries out) 0 with
    | none => rfl
    | some q => simp [h0]

omit hs hc hacc hfe hw in
include hspi in
theorem Checked.initNN {need : Bool} {len : Nat} {arr : Option (Blk Nat)} {line : Nat} : Checked (initNN spi need len arr line) := by
  unfold Scc.initNN
  repeat' first | checked_step | exact hspi.nnInit _ _ | refine Checked.bind ?_ fun _ => ?_ | split

theorem Checked.initAssigned {n num : Nat} {need : Bool} {l : Option (Blk Int)} : Checked (initAssigned cfg n num need l) := by
  unfold Scc.initAssigned; checked

end

section
variable {cfg : Cfg} {ds : DataSet F} {A : Criterion F} {dist : Nat → Nat → F} {o : Options F} {ob : ClObj} {P : List Nat} {lab c : Nat → Nat} {w : World} {m : SeedMethod}
  (hs : SpiOk (builtinSpi (some ds)) ob.cl.n A dist False) (hc : CallOk cfg o ob P lab c w)
  (hacc : Accepts cfg (builtinSpi (some ds)).valid (builtinSpi (some ds)).numPoints o ob.cl P) (hfe : Solvable cfg A dist ob.cl.n o m P lab c) (hw : w.NoFail)

include hs hc hacc hfe hw in
theorem closestSeed_undef (hm : o.seedMethod = .method m) (he : ¬ m.IsExclusion) (hT : o.numTypes < 2) (hd : ¬ o.sizeConstraint ∣ ob.cl.n)
    (h1 : o.primaryMethod = .closestSeed) (h2 : o.primaryRadius = .noRadius) (h3 : o.primary = none) {f : Nat → Bool → Bool} (hf : OnlyUncheckedFail f) :
    scClustering cfg (builtinSpi (some ds)) o (some ob) (w.withFails f) = none := by
  have hspi : SpiChecked (builtinSpi (some ds)) := builtinSpi_checked _
  obtain ⟨M, d, rows, order, sr, lb, w3, r1, r2, hM, hid, hr, hr1, hrun⟩ := ready hs hspi hc hacc hfe hw hm he fun i => (hf i).1
  rw [scClustering_eq (w := w.withFails f) (by exact hc.mem_id) hc.arrays hacc]
  unfold scAccepted
  rw [hm]
  dsimp only
  refine none_bind_left ?_
  rw [hrun]
  refine none_bind_left ?_
  obtain ⟨rows₀, hn₀, hst⟩ := hr.nng
  have hnng : SizeNng A ob.cl.n o.sizeConstraint (seedLimit o) P rows₀ := by
    rcases hn₀ with h | h
    · exact h.2
    · omega
  have hS := hacc.options.size_two
  have hfa := (hnng.facts hS).stored hst
  have hok := seedsOk_of_nng hfa hr.perm
  have hleft := left_over hnng hst hS hr.perm hd
  have hrs : decide (r1.1 = .useSupplied) = false := by
    by_contra hx
    rw [Bool.not_eq_false] at hx
    rw [hx, h2, h1] at hr1
    simp [stageRadius] at hr1
  obtain ⟨sb, hsb1, -, hsb2⟩ := hr.holds.block
  have hcsr : Csr ob.cl.n (ptrBuf d.head) (ptrBuf d.tail) rows := hr.points ▸ hr.repr.csr
  have hlt1 : LabelsLt ob.cl.n (greedySeeds rows order).length (seedLab rows (greedySeeds rows order)) := fun v c _ hc => seedLab_lt hc
  have hlt2 : LabelsLt ob.cl.n cfg.clabelMax (seedLab rows (greedySeeds rows order)) := fun v c hv hc => (hlt1 v c hv hc).trans_le hr.cap
  have hlbl : lb.id ∈ w3.live := by rw [hr.live]; simp
  unfold makeClusters
  refine none_bind ?_
  rw [wpM_useK]
  refine ⟨?_, ?_⟩
  · intro i hi
    show i ∈ w3.live
    rw [hr.live]
    simp only [List.mem_append, ptrIds, List.mem_singleton, hsb1] at hi
    simp only [Multiset.mem_add, Multiset.mem_singleton, hsb1, ptrOwn_some]
    rcases hi with (rfl | hi) | rfl
    · exact Or.inr (Or.inl (Or.inl rfl))
    · exact Or.inl (mem_ids_iff_own.1 hi)
    · exact Or.inr (Or.inl (Or.inr rfl))
  dsimp only
  rw [hr.holds.count, hsb1]
  refine (assignSeeds_spec hc.config (labels := lb.buf) (sb := sb.buf) hcsr hsb2 hok hfa.nodup hr.cap hr.room).mono ?_
  rintro ⟨l, num⟩ ⟨a1, a2, a3⟩
  dsimp only at a1 a2 a3 ⊢
  subst a3
  rw [h1, if_neg (by simp [assignDone, hleft])]
  refine none_bind ((Checked.initAssigned.wp hr.noFail (fun i => (hf i).1) (initAssigned_spec hc.config (lb := ⟨lb.id, l⟩) a2 hlt2 hlbl)).mono ?_)
  rintro (e | son) _ ⟨w4, rfl, hw4, -, b2⟩
  · exact absurd hr.noFail b2.2.2.2.1
  obtain ⟨b2, b3⟩ := b2
  dsimp only
  rw [if_neg (by simp)]
  refine none_bind (freeDigraph_spec (ptrOwn son + (ptrOwn sr.seeds + {lb.id} + M)) (by show w4.live = _; rw [b2, hr.live]; abel) fun w5 k1 k2 k3 => ?_)
  refine none_bind_left ?_
  have hw5 : ∃ w5', w5 = World.withFails w5' f ∧ w5'.NoFail := ⟨w5.withFails fun _ _ => false, by cases w5; cases k1; rfl, fun _ _ => rfl⟩
  obtain ⟨w5, rfl, hw5⟩ := hw5
  unfold assignRemaining
  have hbase : ∀ x ∈ labelled ob.cl.n (seedLab rows (greedySeeds rows order)), x < ob.cl.n := fun x hx => (mem_labelled.1 hx).1
  have hbase0 : labelled ob.cl.n (seedLab rows (greedySeeds rows order)) ≠ [] := by
    obtain ⟨s, hs'⟩ := List.exists_mem_of_ne_nil _ hr.nonempty
    obtain ⟨i, hi⟩ := List.mem_iff_getElem?.1 hs'
    exact List.ne_nil_of_mem (mem_labelled.2 ⟨hok.range s hs', by rw [hok.seedLab hi (by simp [closedNbr])]; rfl⟩)
  refine none_bind (((Checked.initNN hspi).wp hw5 (fun i => (hf i).1) (initNN_spec hs (set := labelled ob.cl.n (seedLab rows (greedySeeds rows order))) (arr := son) (line := 514)
    (w := w5) (fun hx => ?_) hbase0 (nodup_labelled _ _) hbase)).mono ?_)
  · obtain ⟨b, rfl, hb⟩ := b3 (by simpa using hx)
    refine ⟨b, rfl, hb, ?_⟩
    show b.id ∈ (w5.withFails f).live
    rw [k2]; simp
  rintro (e | oa) _ ⟨w6, rfl, hw6, -, c2⟩
  · rcases c2.2.2.2 with h | h
    · exact absurd hw5 h
    · exact h.elim
  obtain ⟨-, -, owna, idsa, -, c3, -⟩ := c2
  dsimp only
  rw [hr.holds.count]
  refine none_bind (((Checked.initNN hspi).wp hw6 (fun i => (hf i).1) (initNN_spec hs (set := greedySeeds rows order) (arr := sr.seeds) (line := 529)
    (w := w6) (fun hx => ?_) hr.nonempty hok.nodup hok.range)).mono ?_)
  · refine ⟨sb, hsb1, hsb2, ?_⟩
    rw [c3]
    refine Multiset.mem_add.2 (Or.inr ?_)
    show sb.id ∈ (w5.withFails f).live
    rw [k2, hsb1]; simp
  rintro (e | os) _ ⟨w7, rfl, hw7, -, d2⟩
  · rcases d2.2.2.2 with h | h
    · exact absurd hw6 h
    · exact h.elim
  obtain ⟨-, d2, owns, idss, -, d3, -⟩ := d2
  have hos : os ≠ none := d2 (by simp)
  obtain ⟨os, rfl⟩ := Option.ne_none_iff_exists'.1 hos
  dsimp only
  rw [bind_run (alloc_ok (hf _).1)]
  dsimp only
  unfold searchRounds
  have hlen := length_labelled_le ob.cl.n (seedLab rows (greedySeeds rows order))
  have hnsz : ob.cl.n < cfg.sizeMax := by
    have h1 := (hc.limits hacc.options).size
    have h2 := hacc.options.size_le
    calc ob.cl.n < ob.cl.n * 2 := by omega
      _ ≤ ob.cl.n * o.sizeConstraint := Nat.mul_le_mul_left _ hS
      _ ≤ _ := h1
  have hmod : (ob.cl.n + (cfg.sizeMax + 1) - (labelled ob.cl.n (seedLab rows (greedySeeds rows order))).length + 1) % (cfg.sizeMax + 1) =
      ob.cl.n - (labelled ob.cl.n (seedLab rows (greedySeeds rows order))).length + 1 := by
    rw [show ob.cl.n + (cfg.sizeMax + 1) - (labelled ob.cl.n (seedLab rows (greedySeeds rows order))).length + 1 =
      (ob.cl.n - (labelled ob.cl.n (seedLab rows (greedySeeds rows order))).length + 1) + (cfg.sizeMax + 1) by omega, Nat.add_mod_right, Nat.mod_eq_of_lt (by omega)]
  have hPlen := length_unlabelled_le (n := ob.cl.n) (L := seedLab rows (greedySeeds rows order)) (List.nodup_range (n := ob.cl.n)) (fun p hp => List.mem_range.1 hp)
  refine none_bind ?_
  rw [wpM_useK, h3]
  refine ⟨?_, ?_⟩
  · intro i hi
    change i ∈ [w7.fresh, lb.id] at hi
    simp only [List.mem_cons, List.not_mem_nil, or_false] at hi
    show i ∈ ({w7.fresh} + w7.live : Multiset Nat)
    rcases hi with rfl | rfl
    · simp
    · have : lb.id ∈ (w5.withFails f).live := by rw [k2]; simp
      have : lb.id ∈ w5.live := this
      rw [d3, c3]; simp [this]
  · have hwp := listUnassigned_spec (ta := (Buf.raw (ob.cl.n - (labelled ob.cl.n (seedLab rows (greedySeeds rows order))).length + 1) : Buf Nat)) hc.config (labels := l) a2 hlt2
      (pts := none) (arrHolds_range _) (fun p hp => List.mem_range.1 hp) (by simp only [Buf.len_raw]; omega)
    rw [List.length_range] at hwp
    rw [if_neg (by simp), hmod]
    refine hwp.mono ?_
    rintro ⟨cc, num⟩ ⟨-, e2, -⟩
    dsimp only at e2 ⊢
    have hpos : 0 < num := by
      rw [e2]
      by_contra hz
      apply hleft
      have hz' := List.length_eq_zero_iff.1 (Nat.le_zero.1 (Nat.not_lt.1 hz))
      rw [List.filter_eq_nil_iff] at hz'
      have hall : ∀ v ∈ List.range ob.cl.n, (seedLab rows (greedySeeds rows order) v).isSome = true := by
        intro v hv
        simpa [Option.isSome_iff_ne_none] using hz' v hv
      unfold labelled
      rw [List.filter_eq_self.2 hall, List.length_range]
    refine none_bind_left ?_
    unfold assignUnassigned
    rw [if_pos hpos, if_neg (by simp), if_pos rfl]
    refine none_bind ?_
    rw [wpM_useK]
    refine ⟨by simp, ?_⟩
    rw [wp_some]
    unfold assignBySearch
    rw [bind_run (alloc_unchecked_fail (hf _).2), hrs]
    refine none_bind ?_
    unfold touch
    rw [wpM_useK]
    refine ⟨?_, ?_⟩
    · intro i hi
      simp only [List.mem_cons, ptrIds, List.not_mem_nil, or_false] at hi
      subst hi
      show w7.fresh ∈ ({w7.fresh} + w7.live : Multiset Nat)
      simp
    rw [wp_some]
    refine none_bind_left ?_
    exact nnSearch_null (w := { w7 with clock := w7.fresh + 1 + 1, live := {w7.fresh} + w7.live }) (fun i => (hf i).1) hpos

end

/-! ### The exclusion methods lose a block -/

section
variable {cfg : Cfg} {spi : Spi F} {A : Criterion F} {dist : Nat → Nat → F} {o : Options F} {ob : ClObj} {P : List Nat} {lab c : Nat → Nat} {w : World} {m : SeedMethod}
  (hs : SpiOk spi ob.cl.n A dist False) (hspi : SpiChecked spi) (hc : CallOk cfg o ob P lab c w)
  (hacc : Accepts cfg spi.valid spi.numPoints o ob.cl P) (hfe : Solvable cfg A dist ob.cl.n o m P lab c) (hw : w.NoFail)

/-- The world after a successful request. -/
def World.grown (w : World) : World := { w with clock := w.fresh + 1, live := {w.fresh} + w.live }

theorem World.clock_lt_grown (w : World) : w.clock < w.grown.clock := Nat.lt_succ_of_le (le_max_left _ _)

omit [FloatOps F] in
theorem exclusionGraph_noMemory {nng : Digraph} {rows : Nat → List Nat} {keep : Option (List Nat)} {w : World} (h : nng.Repr cfg rows) (hl : ∀ i ∈ nng.ids, i ∈ w.live)
    (hf : w.fails w.clock true = true) : WpM (exclusionGraph cfg nng keep) w fun r w' => r = .error .noMemory ∧ w'.live = w.live ∧ w'.err.code = .noMemory := by
  unfold exclusionGraph
  rw [wpM_bind]
  unfold digraphTranspose
  rw [wpM_bind, wpM_useK]
  refine ⟨hl, ?_⟩
  rw [wp_eq h.csr.total, wpM_bind]
  have h2 := h.off_le
  have h3 := h.arcs
  have h4 := h.arcs_size
  unfold emptyDigraph
  rw [if_neg (by omega), wpM_bind]
  refine ⟨none, { w with clock := w.clock + 1 }, if_pos hf, ?_⟩
  dsimp only
  refine wpM_fail fun w2 k1 k2 k3 => ?_
  dsimp only
  rw [wpM_pure, wpM_pure]
  exact ⟨rfl, k2, by rw [k3]⟩

omit [FloatOps F] in
theorem findSeedsExclusion_leak {nng : Digraph} {rows : Nat → List Nat} {u : Bool} {cap : Nat} {w : World} (h : nng.Repr cfg rows) (hl : ∀ i ∈ nng.ids, i ∈ w.live)
    {v : Nat} (hv : v < nng.n) (hr : rows v = []) {f : Nat → Bool → Bool} (hf : ∀ i ch, f i ch = decide (w.grown.grown.clock ≤ i)) :
    WpM (findSeedsExclusion cfg nng u cap) (w.withFails f) fun r w' => r = .error .noMemory ∧ (∃ x, x ∉ w.live ∧ w'.live = {x} + w.live) ∧ w'.err.code = .noMemory := by
  have c1 := w.clock_lt_grown
  have c2 := w.grown.clock_lt_grown
  unfold findSeedsExclusion
  rw [wpM_bind]
  refine ⟨_, _, alloc_ok (by rw [hf, decide_eq_false (by omega)]), ?_⟩
  dsimp only
  rw [wpM_bind]
  refine ⟨_, _, alloc_ok (w := w.grown) (by rw [hf, decide_eq_false (by omega)]), ?_⟩
  unfold noIndexArray
  dsimp only
  rw [wpM_bind, wpM_pure, wpM_bind, wpM_useK]
  have hlive : (w.grown.grown.withFails f).live = {w.grown.fresh} + ({w.fresh} + w.live) := rfl
  refine ⟨?_, ?_⟩
  · intro x hx
    show x ∈ (w.grown.grown.withFails f).live
    rw [hlive]
    simp only [List.cons_append, List.mem_cons, List.mem_append, ptrIds, List.not_mem_nil, or_false, List.nil_append] at hx
    simp only [Multiset.mem_add, Multiset.mem_singleton]
    rcases hx with hx | hx | hx
    · exact Or.inr (Or.inl hx)
    · exact Or.inl hx
    · exact Or.inr (Or.inr (hl x hx))
  refine (notExcludedK_spec h.csr rfl rfl).mono ?_
  rintro ⟨neb, ib, k⟩ ⟨a1, a2, a3⟩
  dsimp only at a1 a2 a3 ⊢
  have hk : k ≠ nng.n := by
    intro hkn
    have hlen : ((List.range nng.n).filter (fun v => rows v ≠ [])).length = (List.range nng.n).length := by rw [← a3, hkn, List.length_range]
    rw [List.length_filter_eq_length_iff] at hlen
    have := hlen v (List.mem_range.2 hv)
    simp [hr] at this
  rw [wpM_bind]
  unfold tailsToKeep
  rw [if_neg hk, wpM_bind, wpM_useK]
  refine ⟨by show ∀ i ∈ [w.grown.fresh], i ∈ (w.grown.grown.withFails f).live; rw [hlive]; simp, ?_⟩
  rw [wp_eq a2, wpM_pure]
  dsimp only
  rw [wpM_bind]
  refine (exclusionGraph_noMemory (w := w.grown.grown.withFails f) h (fun x hx => ?_) ?_).mono ?_
  · rw [hlive]; simp [hl x hx]
  · show f w.grown.grown.clock true = true
    rw [hf]; simp
  · rintro r w3 ⟨rfl, b2, b3⟩
    dsimp only
    rw [wpM_bind]
    refine wpM_freeId ({w.grown.fresh} + w.live) (by rw [b2, hlive]; abel) fun w4 k1 k2 k3 => ?_
    rw [wpM_pure]
    refine ⟨rfl, ⟨w.grown.fresh, fun hx => ?_, k2⟩, by rw [k3, b3]⟩
    exact fresh_not_mem (w := w.grown) (Multiset.mem_add.2 (Or.inr hx))

include hs hspi hc hacc hfe hw in
theorem exclusion_leak (hm : o.seedMethod = .method m) (he : m.IsExclusion) {v : Nat} (hv : v < ob.cl.n) (hvP : v ∉ P) :
    ∃ (f : Nat → Bool → Bool) (w' : World) (x : Nat), scClustering cfg spi o (some ob) (w.withFails f) = some ((.noMemory, some ob), w') ∧ x ∉ w.live ∧ w'.live = {x} + w.live := by
  obtain ⟨d, w1, rows, hn, hr, hnng, -, hw1, hl1, -, hb⟩ := build_run hs hspi hc hacc hfe hw
  have hfa := hnng.facts hacc.options.size_two
  have hrv : rows v = [] := by
    by_contra hx
    exact hvP (hfa.mem v hv hx)
  have c1 := w1.clock_lt_grown
  have c2 := w1.grown.clock_lt_grown
  have hf : ∃ f : Nat → Bool → Bool, ∀ i ch, f i ch = decide (w1.grown.grown.clock ≤ i) := ⟨fun i _ => decide (w1.grown.grown.clock ≤ i), fun _ _ => rfl⟩
  obtain ⟨f, hf⟩ := hf
  have hngl : ∀ i ∈ d.ids, i ∈ w1.live := fun i hi => by rw [hl1]; exact Multiset.mem_add.2 (Or.inl (mem_ids_iff_own.1 hi))
  have key : WpM (clusterByNng cfg spi ob.cl o m) (w.withFails f) fun r w' => r = (.noMemory, ob.cl) ∧ ∃ x, x ∉ w.live ∧ w'.live = {x} + w.live := by
    unfold clusterByNng
    rw [wpM_bind]
    refine ⟨_, _, hb f fun i hi => by rw [hf, decide_eq_false (by omega)], ?_⟩
    dsimp only
    rw [wpM_bind]
    unfold clusteringFromNng
    rw [wpM_bind]
    unfold findSeeds
    rw [wpM_bind]
    have hex : findSeedsBy cfg d m (1 + ob.cl.n / o.sizeConstraint) = findSeedsExclusion cfg d (decide (m = .exclusionUpdating)) (1 + ob.cl.n / o.sizeConstraint) := by
      rcases he with rfl | rfl <;> rfl
    rw [hex]
    refine (findSeedsExclusion_leak hr hngl (by rw [hn]; exact hv) hrv hf).mono ?_
    rintro _ w2 ⟨rfl, ⟨x, b1, b2⟩, b3⟩
    dsimp only
    rw [wpM_pure]
    dsimp only
    rw [wpM_pure]
    dsimp only
    rw [wpM_bind]
    refine freeDigraph_spec ({x} + w.live) (by rw [b2, hl1]; abel) fun w3 k1 k2 k3 => ?_
    rw [wpM_pure]
    exact ⟨rfl, x, fun hx => b1 (by rw [hl1]; exact Multiset.mem_add.2 (Or.inr hx)), k2⟩
  obtain ⟨_, w', e1, rfl, x, e2, e3⟩ := key
  refine ⟨f, w', x, ?_, e2, e3⟩
  rw [scClustering_eq (w := w.withFails f) (by exact hc.mem_id) hc.arrays hacc]
  unfold scAccepted
  rw [hm]
  dsimp only
  rw [bind_run e1]
  have : touch [ob.id] w' = some ((), w') := by
    unfold touch useK
    rw [if_pos (by simp [e3, hc.mem_id])]
    rfl
  dsimp only
  rw [bind_run this]
  rfl

/-! ### Batches mark primary points in a null array -/

omit [FloatOps F] in
theorem ensureLabels_ok {cl : Clustering} {f : Nat → Bool → Bool} (hf : ∀ i, f i true = false) {w : World} (hw : w.fails = f) :
    ∃ cl' w', ensureLabels cl w = some ((true, cl'), w') ∧ w'.fails = f := by
  unfold ensureLabels
  cases hl : cl.label with
  | some lb => exact ⟨cl, w, rfl, hw⟩
  | none =>
    obtain ⟨w0, rfl⟩ : ∃ w0 : World, w = w0.withFails f := ⟨w, by cases w; cases hw; rfl⟩
    dsimp only
    rw [bind_run (alloc_ok (hf _))]
    exact ⟨_, _, rfl, rfl⟩

theorem batchesMain_undef {so : spi.NN} {cl : Clustering} {S : Nat} {um : UnassignedMethod} {rs : Bool} {radius : F} {len : Nat} {primary : Option (Buf Nat)} {bs : Nat} {batch out : Blk Nat}
    {assigned : Blk Bool} {p : Buf Nat} (hp : primary = some p) (hlen : len ≠ 0) {f : Nat → Bool → Bool} (hf : OnlyUncheckedFail f) {w : World} (hw : w.fails = f) :
    batchesMain cfg spi so cl S um rs radius len primary bs batch out assigned w = none := by
  obtain ⟨cl', w1, h1, h2⟩ := ensureLabels_ok (cl := cl) (fun i => (hf i).1) hw
  obtain ⟨w0, rfl⟩ : ∃ w0 : World, w1 = w0.withFails f := ⟨w1, by cases w1; cases h2; rfl⟩
  unfold batchesMain
  rw [bind_run h1]
  dsimp only
  rw [if_neg (by simp)]
  refine none_bind_left ?_
  subst hp
  unfold initPrimary
  dsimp only
  rw [bind_run (alloc_unchecked_fail (hf _).2)]
  refine none_bind_left (useK_none ?_)
  unfold markPrimary
  refine forLt_none (by omega) ?_
  cases hq : p.get 0 with
  | none => rfl
  | some q => rfl

include hs hspi hc hacc hw in
theorem batches_undef (hm : o.seedMethod = .batches) (hum : o.primaryMethod = .ignore ∨ o.primaryMethod = .anyNeighbor) (hP : o.primary ≠ none) {f : Nat → Bool → Bool}
    (hf : OnlyUncheckedFail f) : scClustering cfg spi o (some ob) (w.withFails f) = none := by
  rw [scClustering_eq (w := w.withFails f) (by exact hc.mem_id) hc.arrays hacc]
  unfold scAccepted
  rw [hm]
  dsimp only
  refine none_bind_left ?_
  have hv := hacc.options
  have hS := hv.size_two
  have hn := hv.size_le
  obtain ⟨p, hp⟩ := Option.ne_none_iff_exists'.1 hP
  have hargs : batchArgsError spi ob.cl o.sizeConstraint o.primaryMethod (decide (o.seedRadius = .useSupplied)) o.seedSupplied o.lenPrimary o.primary = none :=
    batchArgsError_none hacc.valid hs.numPoints hv hacc.empty hum
  unfold clusterBatches
  rw [hargs]
  dsimp only
  refine none_bind (((hspi.nnInit _ _).wp hw (fun i => (hf i).1) (hs.nnInit ob.cl.n none (List.range ob.cl.n) w (arrHolds_range _) (by simp) (by omega) List.nodup_range
    (fun x hx => List.mem_range.1 hx) (by simp [arrIds]))).mono ?_)
  rintro (_ | so) _ ⟨w1, rfl, hw1, -, -, h1⟩
  · rcases h1.2 with h | h
    · exact absurd hw h
    · exact h.elim
  dsimp only
  rw [bind_run (alloc_ok (hf _).1), bind_run (alloc_ok (hf _).1), bind_run (alloc_ok (hf _).1)]
  dsimp only
  refine batchesMain_undef hp ?_ hf rfl
  rcases hv.primary with ⟨h3, -⟩ | ⟨-, h4, -⟩
  · exact absurd h3 hP
  · exact h4

end

end Scc
