/-
Property C47: clustering in batches and clustering with seeds in lexical order.
-/
import Verif.Props.Batches

set_option linter.unusedVariables false

namespace Scc

variable {F : Type} [FloatOps F]

/-- The digraph when the answer to a query for the nearest points of `q` is `f q`. -/
def answerRows (P : List Nat) (f : Nat → Option (List Nat)) (v : Nat) : List Nat := if v ∈ P then nbrs v ((f v).getD []) else []

theorem clusters_lexical {P : List Nat} {f : Nat → Option (List Nat)} {S : Nat} (hS : 2 ≤ S) (hf : ∀ q ∈ P, ∀ a, f q = some a → q ∈ a ∧ a.length = S ∧ a.Nodup) (ig : Bool) (l : List Nat) (hl : l ⊆ P) :
    (seqRun ig (l.map fun q => (q, f q))).clusters = (greedySeeds (answerRows P f) l).map (closedNbr (answerRows P f)) ∧
    (ig = true → (seqRun ig (l.map fun q => (q, f q))).joined = fun _ => none) := by
  induction l using List.reverseRecOn with
  | nil => exact ⟨rfl, fun _ => rfl⟩
  | append_singleton l v ih =>
    obtain ⟨ih1, ih2⟩ := ih fun x hx => hl (by simp [hx])
    have hv : v ∈ P := hl (by simp)
    rw [List.map_append, seqRun_append]
    simp only [List.map_cons, List.map_nil, List.foldl_cons, List.foldl_nil]
    have hg : greedySeeds (answerRows P f) (l ++ [v]) =
        if CanAdd (answerRows P f) (greedySeeds (answerRows P f) l) v then greedySeeds (answerRows P f) l ++ [v] else greedySeeds (answerRows P f) l := by
      unfold greedySeeds
      rw [List.foldl_append]
      rfl
    rw [hg]
    generalize seqRun ig (l.map fun q => (q, f q)) = st at ih1 ih2
    generalize greedySeeds (answerRows P f) l = G at ih1
    have hcap : ∀ x, st.Captured x ↔ ∃ s ∈ G, x ∈ closedNbr (answerRows P f) s := by
      intro x
      unfold SeqState.Captured
      rw [ih1]
      simp
    unfold SeqState.consider
    dsimp only
    by_cases h1 : st.Captured v
    · rw [if_pos h1, if_neg]
      · exact ⟨ih1, ih2⟩
      · rintro ⟨-, h2⟩
        obtain ⟨s, hs, hs2⟩ := (hcap v).1 h1
        exact h2 s hs v (by simp [closedNbr]) hs2
    · rw [if_neg h1]
      cases hfv : f v with
      | none =>
        rw [if_neg]
        · exact ⟨ih1, ih2⟩
        · rintro ⟨h2, -⟩
          simp [answerRows, hv, hfv, nbrs] at h2
      | some a =>
        obtain ⟨ha1, ha2, ha3⟩ := hf v hv a hfv
        have hrow : answerRows P f v = nbrs v a := by simp [answerRows, hv, hfv]
        have hmem : ∀ x, x ∈ closedNbr (answerRows P f) v ↔ x ∈ a := by
          intro x
          unfold closedNbr
          rw [hrow, nbrs, if_pos ha1]
          by_cases hx : x = v
          · simp [hx, ha1]
          · simp [hx]
        have hne : answerRows P f v ≠ [] := by
          rw [hrow]
          intro h0
          have := seedCluster_length (q := v) ha3 ha2 (by omega)
          unfold seedCluster at this
          rw [h0] at this
          simp at this
          omega
        dsimp only
        cases hfind : a.find? fun x => decide (st.Captured x) with
        | none =>
          rw [if_pos]
          · refine ⟨?_, ih2⟩
            dsimp only
            rw [ih1, List.map_append]
            simp [closedNbr, hrow, seedCluster]
          · refine ⟨hne, fun s hs x hx hx2 => ?_⟩
            rw [List.find?_eq_none] at hfind
            exact hfind x ((hmem x).1 hx) (by simpa using (hcap x).2 ⟨s, hs, hx2⟩)
        | some x =>
          have hx1 := List.mem_of_find?_eq_some hfind
          have hx2 : st.Captured x := by simpa using List.find?_some hfind
          rw [if_neg]
          · dsimp only
            cases ig with
            | true => exact ⟨ih1, ih2⟩
            | false => exact ⟨ih1, nofun⟩
          · rintro ⟨-, h2⟩
            obtain ⟨s, hs, hs2⟩ := (hcap x).1 hx2
            exact h2 s hs x ((hmem x).2 hx1) hs2

theorem greedySeeds_skip {rows : Nat → List Nat} {p : Nat → Bool} (h : ∀ v, p v = false → rows v = []) (l : List Nat) : greedySeeds rows l = greedySeeds rows (l.filter p) := by
  suffices key : ∀ S0, l.foldl (fun S v => if CanAdd rows S v then S ++ [v] else S) S0 = (l.filter p).foldl (fun S v => if CanAdd rows S v then S ++ [v] else S) S0 from key []
  induction l with
  | nil => intro S0; rfl
  | cons x l ih =>
    intro S0
    cases hx : p x with
    | true => rw [List.filter_cons_of_pos (by simp [hx]), List.foldl_cons, List.foldl_cons, ih]
    | false =>
      rw [List.filter_cons_of_neg (by simp [hx]), List.foldl_cons, if_neg (fun hc => hc.1 (h x hx)), ih]

/-- C47. When the answer to a query does not depend on other queries and contains the point itself (it does unless there are `size_constraint` other points at the same position), and nothing
fails, then clustering in batches has the same outcome and as many clusters as clustering with seeds in lexical order. If points that no seed captures are ignored the labels are the same, too. -/
theorem C47_batches_lexical {cfg : Cfg} {spi : Spi F} {A : Criterion F} {dist : Nat → Nat → F} {o : Options F} {ob : ClObj}
    (hs : SpiOk spi ob.cl.n A dist False) (hdet : ∀ set k R q a a', A set k R q a → A set k R q a' → a = a') {P : List Nat} {lab c : Nat → Nat} {w : World} (hc : CallOk cfg o ob P lab c w)
    (hself : ∀ q ∈ P, ∀ a, A (List.range ob.cl.n) o.sizeConstraint (seedLimit o) q (some a) → q ∈ a) (hm : o.seedMethod = .batches) (hfit : BatchFits o ob.cl.n) (hw : w.NoFail)
    (hacc : Accepts cfg spi.valid spi.numPoints o ob.cl P) (hum : o.primaryMethod = .ignore ∨ o.primaryMethod = .anyNeighbor)
    (harc : ob.cl.n * o.sizeConstraint ≤ cfg.arcMax) (hn : ob.cl.n ≤ cfg.clabelMax) :
    ∃ e p1 w1 p2 w2, scClustering cfg spi o (some ob) w = some ((e, p1), w1) ∧ scClustering cfg spi { o with seedMethod := .method .lexical } (some ob) w = some ((e, p2), w2) ∧
      (e = .ok → ∃ cl1 l1 cl2 l2, p1 = some ⟨ob.id, cl1⟩ ∧ cl1.label = some l1 ∧ p2 = some ⟨ob.id, cl2⟩ ∧ cl2.label = some l2 ∧ cl1.numClusters = cl2.numClusters ∧
        (o.primaryMethod = .ignore → ∀ v, v < ob.cl.n → l1.buf.get v = l2.buf.get v ∧ (l1.buf.get v).isSome)) := by
  classical
  have hv := hacc.options
  obtain ⟨ht, hum2, hpr⟩ := hv.batches hm
  have hS := hv.size_two
  have hPn := hc.arrays.range
  have hPs := primary_sorted hv hc.arrays
  -- the answers
  obtain ⟨f, hf⟩ : ∃ f : Nat → Option (List Nat), ∀ q a, A (List.range ob.cl.n) o.sizeConstraint (seedLimit o) q a → a = f q := by
    refine ⟨fun q => if h : ∃ a, A (List.range ob.cl.n) o.sizeConstraint (seedLimit o) q a then h.choose else none, fun q a ha => ?_⟩
    have hex : ∃ a, A (List.range ob.cl.n) o.sizeConstraint (seedLimit o) q a := ⟨a, ha⟩
    dsimp only
    rw [dif_pos hex]
    exact hdet _ _ _ _ _ _ ha hex.choose_spec
  -- the two calls
  obtain ⟨r1, w1, h1, h2⟩ := scBatches_functional hs hc hm hfit hacc hum hw (f := f) hf
  obtain ⟨g, hg⟩ : ∃ g : Nat → Option (List Nat), ∀ q, g q = (f q).map (stored cfg) := ⟨_, fun _ => rfl⟩
  simp only [← hg] at h2
  have hv' : ValidOptions { o with seedMethod := .method .lexical } ob.cl.n P :=
    ⟨hv.version, hv.size_two, hv.size_le, hv.types, nofun, hv.primary, hv.primaryMethod, hv.secondaryMethod, hv.seedRadius, hv.primaryRadius, hv.secondaryRadius, nofun⟩
  have hc' : CallOk cfg { o with seedMethod := .method .lexical } ob P lab c w :=
    ⟨hc.config, hc.live, hc.room, ⟨hc.arrays.all, hc.arrays.primary, hc.arrays.range, hc.arrays.labels, hc.arrays.constraints⟩, fun _ => ⟨(hc.limits hv).size, (hc.limits hv).types⟩, hc.unchecked⟩
  have hacc' : Accepts cfg spi.valid spi.numPoints { o with seedMethod := .method .lexical } ob.cl P := ⟨hacc.initialized, hacc.valid, hacc.points, hv', hacc.empty⟩
  have hfil := filter_mem_eq hPs hPn
  have hskip : greedySeeds (answerRows P g) (List.range ob.cl.n) = greedySeeds (answerRows P g) P := by
    rw [greedySeeds_skip (p := fun v => decide (v ∈ P)) (fun v hv => by
      have : v ∉ P := by simpa using hv
      simp [answerRows, this]), hfil]
  have hlen : (greedySeeds (answerRows P g) P).length ≤ ob.cl.n := by
    refine (greedySeeds_sublist _ _).length_le.trans ?_
    rw [← hfil]
    simpa using List.length_filter_le (fun v => decide (v ∈ P)) (List.range ob.cl.n)
  have hrows : ∀ rows, NngStored cfg A ob.cl.n o P lab c rows → (∀ v, v < ob.cl.n → rows v = answerRows P g v) ∧ ∀ q ∈ P, ∀ a, g q = some a → q ∈ a ∧ a.length = o.sizeConstraint ∧ a.Nodup := by
    rintro rows ⟨rows₀, ⟨-, ans, h3, h4⟩ | ⟨h3, -⟩, he⟩
    · refine ⟨fun v hvn => ?_, fun q hq a ha => ?_⟩
      · rw [he, h4 v hvn]
        unfold answerRows ansRows
        by_cases hvP : v ∈ P
        · rw [if_pos hvP, hg, ← hf v _ (h3.crit v hvP)]
          cases hav : ans v with
          | none => simp [nbrs]
          | some a =>
            have h5 := h3.crit v hvP
            rw [hav] at h5
            exact stored_nbrs (hself v hvP a h5)
        · rw [if_neg hvP, h3.none_of v hvP]
          simp [nbrs]
      · have h5 := h3.crit q hq
        have h6 := hf q _ h5
        rw [hg, Option.map_eq_some_iff] at ha
        obtain ⟨a', ha, rfl⟩ := ha
        rw [ha] at h6
        rw [h6] at h5
        rw [mem_stored, length_stored, nodup_stored]
        exact ⟨hself q hq a' h5, (h3.row q a' h6).1, (h3.row q a' h6).2.1⟩
    · omega
  by_cases hns : NoSeeds A ob.cl.n o P lab c
  · have hnone : ∀ q ∈ P, g q = none := by
      rcases hns with ⟨-, -, h3⟩ | ⟨h3, -⟩
      · exact fun q hq => by rw [hg, ← hf q _ (h3 q hq)]; rfl
      · omega
    have hcl := clusters_lexical (P := P) (f := g) hS (fun q hq a ha => by rw [hnone q hq] at ha; cases ha) (decide (o.primaryMethod = .ignore)) P (fun _ h => h)
    have hempty : greedySeeds (answerRows P g) P = [] := by
      rw [greedySeeds_skip (p := fun _ => false) (fun v _ => by
        by_cases hvP : v ∈ P
        · simp [answerRows, hvP, hnone v hvP, nbrs]
        · simp [answerRows, hvP])]
      simp [greedySeeds]
    rw [hempty, List.map_nil] at hcl
    obtain ⟨⟨e, p⟩, w2, h3, h4⟩ := scClustering_spec (m := .lexical) hs hc' rfl
    have he : e = .noSolution := by
      rcases h4 with h4 | ⟨-, -, M, cl', hlive, hp, h4⟩
      · exact absurd hacc' fun h => h4.cause.not_accepts h
      · cases h4 with
        | done _ _ rows order L2 L3 L id l data lab' live =>
          exfalso
          refine data.seeds_ne ?_
          rw [show order = List.range ob.cl.n from data.method.1, greedySeeds_congr (rows' := answerRows P g) fun v hv => (hrows rows data.nng).1 v (List.mem_range.1 hv), hskip, hempty]
        | early _ _ _ leak cause unt err live leaked =>
          rcases cause with (⟨-, h⟩ | ⟨-, h⟩ | ⟨-, h⟩) | ⟨h, -⟩ | ⟨-, h3, h4⟩
          · rcases h with h | h | h
            · exact absurd harc (not_le.2 h)
            · exact absurd hn (not_le.2 h)
            · rcases h with h | h <;> cases h
          · exact absurd hw h
          · exact (h.elim (fun h => h hw) fun h => h).elim
          · exact h
          · exact absurd h3 (not_le.2 ht)
        | late _ _ _ L id l cause err search labels lt pos cap lab' live =>
          rcases cause with ⟨-, h⟩ | ⟨-, h⟩ | ⟨-, h⟩
          · exact h.elim
          · exact absurd hw h
          · exact (h.elim (fun h => h hw) fun h => h).elim
    subst he
    cases h2 with
    | ok cl b pos cap count label points labels => rw [hcl.1] at pos; simp at pos
    | tooLarge p big => rw [hcl.1] at big; simp at big
    | noSeeds cl b none count label labels => exact ⟨_, _, w1, _, w2, h1, h3, nofun⟩
  · obtain ⟨cl2, b2, w2, rows, order, L2, L3, L, h3, h4, h5⟩ := run_ok (m := .lexical) hs hc' rfl hacc' hw
      (by
        rintro (h | h | h)
        · exact absurd harc (not_le.2 h)
        · exact absurd hn (not_le.2 h)
        · rcases h with h | h <;> cases h) hns
      (fun rows order _ _ hb => by
        rcases hb.1 with ⟨-, h⟩ | ⟨h, -⟩
        · simp [hpr] at h
        · simp [hum2] at h) (fun h => absurd h (not_le.2 ht))
    obtain ⟨hr, hans⟩ := hrows rows h5.nng
    have hcl := clusters_lexical hS hans (decide (o.primaryMethod = .ignore)) P (fun _ h => h)
    have hseeds : greedySeeds rows order = greedySeeds (answerRows P g) P := by
      rw [show order = List.range ob.cl.n from h5.method.1, greedySeeds_congr (rows' := answerRows P g) fun v hv => hr v (List.mem_range.1 hv), hskip]
    have hcount := h5.count
    have hne := h5.seeds_ne
    rw [hseeds] at hcount hne
    cases h2 with
    | ok cl b pos cap count label points labels =>
      refine ⟨_, _, w1, _, w2, h1, h3, fun _ => ⟨cl, b, cl2, b2, rfl, label, rfl, h4, ?_, fun hig v hvn => ?_⟩⟩
      · rw [count, hcl.1, List.length_map, hcount]
      · rw [labels v hvn, h5.labels v hvn]
        refine ⟨?_, rfl⟩
        congr 2
        have hL : L v = seedLab rows (greedySeeds rows order) v := by
          have hst := h5.staged
          simp only [hig, hum2] at hst
          have h6 := hst.nng v hvn
          have h7 : L3 v = L2 v := hst.first v hvn
          have h8 : L v = L3 v := by
            rcases hst.second with h | h
            · exact h v hvn
            · exact h.1.elim
          rw [h8, h7, h6, if_neg (by simp [UsesNng])]
        rw [hL, hseeds, seedLab_congr (rows' := answerRows P g) fun s hs' => hr s (hPn s ((greedySeeds_sublist _ _).subset hs'))]
        unfold SeqState.label seedLab
        rw [hcl.1, hcl.2 (by simp [hig]), Option.or_none, List.findIdx?_map]
        rfl
    | tooLarge p big =>
      rw [hcl.1, List.length_map] at big
      omega
    | noSeeds cl b none count label labels =>
      rw [hcl.1] at none
      exact absurd (List.map_eq_nil_iff.1 none) hne

/-- On the line the labels are those of `batch_run`. -/
example : ∃ e p1 w1 p2 w2, scClustering sampleCfg (builtinSpi (some lineData)) (batchOpts .ignore 4) (some lineObj) (sampleWorld [5]) = some ((e, p1), w1) ∧
    scClustering sampleCfg (builtinSpi (some lineData)) { batchOpts .ignore 4 with seedMethod := .method .lexical } (some lineObj) (sampleWorld [5]) = some ((e, p2), w2) ∧
    (e = .ok → ∃ cl1 l1 cl2 l2, p1 = some ⟨5, cl1⟩ ∧ cl1.label = some l1 ∧ p2 = some ⟨5, cl2⟩ ∧ cl2.label = some l2 ∧ cl1.numClusters = cl2.numClusters ∧
      (UnassignedMethod.ignore = UnassignedMethod.ignore → ∀ v, v < 6 → l1.buf.get v = l2.buf.get v ∧ (l1.buf.get v).isSome)) :=
  C47_batches_lexical lineSpi_ok (fun set k R q a a' h h' => h.trans h'.symm) (batch_call .ignore 4)
    (fun q hq a h => by
      have key : ∀ q ∈ List.range 6, ∀ b ∈ nnAnswer (lineData.sqd q) (List.range 6) 2 none, q ∈ b := by decide
      exact key q hq a (Eq.symm h))
    rfl (batch_fits _ _) (fun _ _ => rfl) (batch_accepts 4 (by decide)) (Or.inl rfl) (by show 6 * 2 ≤ 2 ^ 32 - 1; decide) (by show 6 ≤ 2 ^ 31 - 1; decide)

end Scc
