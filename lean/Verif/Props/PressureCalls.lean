/-
Property C67 for the clustering call, with all options: running out of memory does not change a result unnoticed.

In Props/Pressure.lean this is derived from what is known about single calls, which determines the result only for some options. Here the two calls are compared step by step. So the options may have type
constraints, searches may choose among equally close points, and seeds may be found by any method in any build.
-/
import Verif.Proofs.PressSpi
import Verif.Props.Pressure
import Verif.Props.Clustering
import Verif.Props.Ann

set_option linter.unusedVariables false

namespace Scc

variable {F : Type} [FloatOps F]

/-- The call assigns secondary points by a search. -/
def SearchesSecondary (o : Options F) : Prop := o.seedMethod ≠ .batches ∧ (o.secondaryMethod = .closestAssigned ∨ o.secondaryMethod = .closestSeed)

/-- Two clustering objects after calls that returned the same code: the same number of points and clusters, and the same labels. Only if `lost`, the first may leave points unassigned that are assigned in the
second. -/
def AgreeUpTo (cfg : Cfg) (lost : Prop) (ob ob' : ClObj) : Prop :=
  ob.cl.n = ob'.cl.n ∧ ob.cl.numClusters = ob'.cl.numClusters ∧ (ob.cl.label.isSome = ob'.cl.label.isSome) ∧ ∀ b b', ob.cl.label = some b → ob'.cl.label = some b' → ∀ v,
    b.buf.get v = b'.buf.get v ∨ lost ∧ b.buf.get v = some cfg.na ∧ ∃ x, b'.buf.get v = some x

/-- C67 for the clustering call with any back end, any options and any clustering object. The call is made in a process in which any checked request for memory may fail, and in one in which none fails. If the
first reports neither lack of memory nor a failed search, and not that the problem is too large, it returns the code of the second, and the clustering objects agree. -/
theorem C67_backend {spi : Spi F} (hf : spi.Firm) (cfg : Cfg) (o : Options F) (p : Option ClObj) {w v w' v' : World} (hw : w.UncheckedOk) (hv : v.NoFail) {e e' : ErrorCode} {q q' : Option ClObj}
    (h : scClustering cfg spi o p w = some ((e, q), w')) (h' : scClustering cfg spi o p v = some ((e', q'), v')) :
    (e = .noMemory ∨ e = .distSearch) ∨ o.seedMethod ≠ .batches ∧ e = .tooLarge ∨
      e = e' ∧ (q = none ∧ q' = none ∨ ∃ ob ob', q = some ob ∧ q' = some ob' ∧ AgreeUpTo cfg (SearchesSecondary o) ob ob') := by
  rcases pair_scClustering cfg hf o p w v _ _ hw hv h h' with (h | h) | ⟨⟨h1, h2⟩, -⟩
  · exact Or.inl h
  · exact Or.inr (Or.inl h)
  · refine Or.inr (Or.inr ⟨h1, ?_⟩)
    dsimp only at h2
    cases h2 with
    | none => exact Or.inl ⟨rfl, rfl⟩
    | some hl =>
      refine Or.inr ⟨_, _, rfl, rfl, ?_⟩
      clear h h'
      cases hl with
      | mk h =>
        refine ⟨rfl, rfl, ?_, ?_⟩
        · cases h <;> rfl
        · rintro b b' hb hb' x
          dsimp only at hb hb'
          cases h with
          | null => cases hb
          | ptr h =>
            cases hb
            cases hb'
            exact h x

/-- C67 for the methods that construct a digraph, with any options: type constraints, any back end whose answers follow a criterion, seed methods and builds. "Too large" is returned only if the number of
points or of types is too large for the types of the library.

Missing from C67: that no points are left unassigned when the secondary points are assigned by a search, which is false (`C67_fails_secondary`). -/
theorem C67_calls_partial {cfg : Cfg} {spi : Spi F} {A : Criterion F} {dist : Nat → Nat → F} {mayRefuse : Prop} {o : Options F} {ob : ClObj} (hs : SpiOk spi ob.cl.n A dist mayRefuse) (hf : spi.Firm)
    {P : List Nat} {lab c : Nat → Nat} {w v : World} (hc : CallOk cfg o ob P lab c w) (hc' : CallOk cfg o ob P lab c v) (hv : v.NoFail) {m : SeedMethod} (hm : o.seedMethod = .method m) :
    ∃ e p w' e' p' v', scClustering cfg spi o (some ob) w = some ((e, p), w') ∧ scClustering cfg spi o (some ob) v = some ((e', p'), v') ∧
      ((e = .noMemory ∨ e = .distSearch) ∨ e = .tooLarge ∧ (65535 < o.numTypes ∨ TooBig cfg ob.cl.n o.sizeConstraint m) ∨
        e = e' ∧ (e = .ok → ∃ ob1 ob2, p = some ob1 ∧ p' = some ob2 ∧ LeavesOut cfg ob.cl.n ob1 ob2) ∧
          (o.secondaryMethod ≠ .closestAssigned ∧ o.secondaryMethod ≠ .closestSeed → SameClusters ob.cl.n (scClustering cfg spi o (some ob) w) (scClustering cfg spi o (some ob) v))) := by
  obtain ⟨⟨e, p⟩, w', h1, h2⟩ := scClustering_spec hs hc hm
  obtain ⟨⟨e', p'⟩, v', h1', h2'⟩ := scClustering_spec hs hc' hm
  refine ⟨e, p, w', e', p', v', h1, h1', ?_⟩
  have hread : ∀ {u u' : World} {e : ErrorCode} {p : Option ClObj}, (RejectPost cfg spi o ob P u (e, p) u' ∨
      Accepts cfg spi.valid spi.numPoints o ob.cl P ∧ u'.fails = u.fails ∧ ∃ M cl', u.live = ptrOwn ob.cl.label + M ∧ (e, p).2 = some ⟨ob.id, cl'⟩ ∧
        RunOutcome cfg A dist u ob.cl.n o m P lab c mayRefuse M ob.cl ((e, p).1, cl') u') → e = .ok → ∃ ob1 b, p = some ob1 ∧ ob1.cl.label = some b ∧ ∀ x, x < ob.cl.n → ∃ l, b.buf.get x = some l := by
    rintro u u' e p h rfl
    rcases h with h | ⟨-, -, M, cl', hlive, hp, h⟩
    · exact absurd rfl h.ne_ok
    · dsimp only at hp
      subst hp
      cases h with
      | done _ _ rows order L2 L3 L id l data lab' live => exact ⟨_, ⟨id, l⟩, rfl, by rw [lab'.eq], fun x hx => ⟨_, data.labels x hx⟩⟩
      | early _ _ _ leak cause unt err live leaked => exact absurd rfl cause.ne_ok
      | late _ _ _ L id l cause err search labels lt pos cap lab' live => exact absurd rfl cause.ne_ok
  rcases C67_backend hf cfg o (some ob) hc.unchecked hv h1 h1' with h | ⟨-, h⟩ | ⟨rfl, h⟩
  · exact Or.inl h
  · subst h
    refine Or.inr (Or.inl ⟨rfl, ?_⟩)
    rcases h2 with h2 | ⟨-, -, M, cl', hlive, hp, h2⟩
    · rcases h2.cause with ⟨h, -⟩ | ⟨-, h⟩ | ⟨h, -⟩
      · cases h
      · rcases h with ⟨h, -⟩ | ⟨h, -⟩ | ⟨-, h⟩ | ⟨h, -⟩
        · cases h
        · cases h
        · exact Or.inl h
        · cases h
      · cases h
    · cases h2 with
      | early _ _ _ leak cause unt err live leaked =>
        rcases cause with (⟨-, h⟩ | ⟨h, -⟩ | ⟨h, -⟩) | ⟨h, -⟩ | ⟨h, -⟩
        · exact Or.inr h
        all_goals cases h
      | late _ _ _ L id l cause err search labels lt pos cap lab' live =>
        rcases cause with ⟨-, h⟩ | ⟨h, -⟩ | ⟨h, -⟩
        · exact h.elim
        all_goals cases h
  · refine Or.inr (Or.inr ⟨rfl, ?_⟩)
    have key : e = .ok → ∃ ob1 ob2 b b', p = some ob1 ∧ p' = some ob2 ∧ ob1.cl.label = some b ∧ ob2.cl.label = some b' ∧ ob1.cl.numClusters = ob2.cl.numClusters ∧
        ∀ x, x < ob.cl.n → (∃ l, b.buf.get x = some l) ∧ (∃ l, b'.buf.get x = some l) ∧ (b.buf.get x = b'.buf.get x ∨ SearchesSecondary o ∧ b.buf.get x = some cfg.na) := by
      intro he
      obtain ⟨ob1, b, rfl, hb, hl⟩ := hread h2 he
      obtain ⟨ob2, b', rfl, hb', hl'⟩ := hread h2' he
      rcases h with ⟨h, -⟩ | ⟨x, y, hx, hy, h3, h4, h5, h6⟩
      · cases h
      · cases hx
        cases hy
        exact ⟨_, _, b, b', rfl, rfl, hb, hb', h4, fun x hx => ⟨hl x hx, hl' x hx, (h6 b b' hb hb' x).imp id fun h => ⟨h.1, h.2.1⟩⟩⟩
    refine ⟨fun he => ?_, fun hsec => ⟨_, _, _, _, _, h1, h1', fun he => ?_⟩⟩
    · obtain ⟨ob1, ob2, b, b', hp, hp', hb, hb', hk, h⟩ := key he
      refine ⟨ob1, ob2, hp, hp', b, b', hb, hb', hk, fun x hx => ?_⟩
      obtain ⟨-, ⟨l, hl⟩, h⟩ := h x hx
      exact ⟨l, hl, h.imp (fun h => h.trans hl) And.right⟩
    · obtain ⟨ob1, ob2, b, b', hp, hp', hb, hb', hk, h⟩ := key he
      refine ⟨ob1, ob2, b, b', hp, hp', hb, hb', hk, fun x hx => ?_⟩
      obtain ⟨-, ⟨l, hl⟩, h⟩ := h x hx
      refine ⟨l, ?_, hl⟩
      rcases h with h | ⟨⟨-, h⟩, -⟩
      · exact h.trans hl
      · rcases h with h | h
        · exact absurd h hsec.1
        · exact absurd h hsec.2

/-- C67 for batches, with any back end whose answers follow a criterion. -/
theorem C67_batches_any {cfg : Cfg} {spi : Spi F} {A : Criterion F} {dist : Nat → Nat → F} {mayRefuse : Prop} {o : Options F} {ob : ClObj} (hs : SpiOk spi ob.cl.n A dist mayRefuse) (hf : spi.Firm)
    {P : List Nat} {lab c : Nat → Nat} {w v : World} (hc : CallOk cfg o ob P lab c w) (hc' : CallOk cfg o ob P lab c v) (hv : v.NoFail) (hm : o.seedMethod = .batches) (hfit : BatchFits o ob.cl.n) :
    ∃ e p w', scClustering cfg spi o (some ob) w = some ((e, p), w') ∧ (e = .noMemory ∨ e = .distSearch ∨
      SameClusters ob.cl.n (scClustering cfg spi o (some ob) w) (scClustering cfg spi o (some ob) v)) := by
  obtain ⟨⟨e, p⟩, w', h1, h2⟩ := scBatches_spec hs hc hm hfit
  obtain ⟨⟨e', p'⟩, v', h1', h2'⟩ := scBatches_spec hs hc' hm hfit
  refine ⟨e, p, w', h1, ?_⟩
  have hread : ∀ {u u' : World} {e : ErrorCode} {p : Option ClObj}, (RejectPost cfg spi o ob P u (e, p) u' ∨
      Accepts cfg spi.valid spi.numPoints o ob.cl P ∧ u'.fails = u.fails ∧ ((o.primaryMethod ≠ .ignore ∧ o.primaryMethod ≠ .anyNeighbor) ∧ (e, p) = (.invalidInput, some ob) ∧ u'.err.code = .invalidInput ∧
        u'.live = u.live ∨ (o.primaryMethod = .ignore ∨ o.primaryMethod = .anyNeighbor) ∧ ∃ M cl', u.live = ptrOwn ob.cl.label + M ∧ (e, p).2 = some ⟨ob.id, cl'⟩ ∧
          BatchOutcome cfg A u ob.cl.n o P mayRefuse M ob.cl ((e, p).1, cl') u')) → e = .ok → ∃ ob1 b, p = some ob1 ∧ ob1.cl.label = some b ∧ ∀ x, x < ob.cl.n → ∃ l, b.buf.get x = some l := by
    rintro u u' e p h rfl
    rcases h with h | ⟨-, -, ⟨-, h, -⟩ | ⟨-, M, cl', hlive, hp, h⟩⟩
    · exact absurd rfl h.ne_ok
    · cases h
    · dsimp only at hp
      subst hp
      cases h with
      | done _ _ evs id l run count pos cap labels labelled live => exact ⟨_, ⟨id, l⟩, rfl, by rw [labelled.eq], fun x hx => ⟨_, labels x hx⟩⟩
      | failed _ _ _ cause err after => exact absurd rfl cause.ne_ok
  rcases C67_backend hf cfg o (some ob) hc.unchecked hv h1 h1' with h | ⟨h, -⟩ | ⟨rfl, h⟩
  · exact h.elim Or.inl fun h => Or.inr (Or.inl h)
  · exact absurd hm h
  · refine Or.inr (Or.inr ⟨_, _, _, _, _, h1, h1', fun he => ?_⟩)
    obtain ⟨ob1, b, rfl, hb, hl⟩ := hread h2 he
    obtain ⟨ob2, b', rfl, hb', hl'⟩ := hread h2' he
    rcases h with ⟨h, -⟩ | ⟨x, y, hx, hy, h3, h4, h5, h6⟩
    · cases h
    · cases hx
      cases hy
      refine ⟨_, _, b, b', rfl, rfl, hb, hb', h4, fun x hx => ?_⟩
      obtain ⟨l, hl⟩ := hl' x hx
      exact ⟨l, ((h6 b b' hb hb' x).resolve_right fun h => h.1.1 hm).trans hl, hl⟩

/-! ### Examples -/

/-- Type constraints, an updating seed method, and seeds whose radius is estimated. -/
def pressTypes : Options Int := { typeOpts with seedMethod := .method .inwardsUpdating, primaryMethod := .closestSeed, primaryRadius := .useEstimated }

/-- The hypotheses hold for six points with these options, in a build without stable sorting, whatever checked allocations fail. -/
example (at_ : List Nat) :
    ∃ e p w' e' p' v', scClustering sampleCfg (builtinSpi (some lineData)) pressTypes (some lineObj) (failingWorld [5] at_) = some ((e, p), w') ∧
      scClustering sampleCfg (builtinSpi (some lineData)) pressTypes (some lineObj) (sampleWorld [5]) = some ((e', p'), v') ∧
      ((e = .noMemory ∨ e = .distSearch) ∨ e = .tooLarge ∧ (65535 < 2 ∨ TooBig sampleCfg 6 2 .inwardsUpdating) ∨
        e = e' ∧ (e = .ok → ∃ ob1 ob2, p = some ob1 ∧ p' = some ob2 ∧ LeavesOut sampleCfg 6 ob1 ob2) ∧
          (pressTypes.secondaryMethod ≠ .closestAssigned ∧ pressTypes.secondaryMethod ≠ .closestSeed →
            SameClusters 6 (scClustering sampleCfg (builtinSpi (some lineData)) pressTypes (some lineObj) (failingWorld [5] at_))
              (scClustering sampleCfg (builtinSpi (some lineData)) pressTypes (some lineObj) (sampleWorld [5])))) := by
  have ha : OptionArrays 6 pressTypes (List.range 6) (fun v => v % 2) (fun _ => 1) := ⟨typeOpts_arrays.all, typeOpts_arrays.primary, typeOpts_arrays.range, typeOpts_arrays.labels, typeOpts_arrays.constraints⟩
  have hc : CallOk sampleCfg pressTypes lineObj (List.range 6) (fun v => v % 2) (fun _ => 1) (sampleWorld [5]) := line_callOk ha ⟨by decide, fun _ => ⟨⟨0, by decide⟩, by decide⟩⟩
  exact C67_calls_partial lineSpi_ok (builtinFirm _) (press_call hc at_) hc (fun _ _ => rfl) rfl

/-- With these options the call fails, or gives the same result. -/
example : (pressResult pressTypes []).isSome ∧ (List.range 40).all (fun i => (pressResult pressTypes [100 + i]) == pressResult pressTypes [] ||
    ((pressResult pressTypes [100 + i]).map Prod.fst == some .noMemory) || ((pressResult pressTypes [100 + i]).map Prod.fst == some .distSearch)) = true := by
  decide +kernel

/-- The scanning library gives positions of points in the tree. So C67 applies to the ANN wrapper, in all builds. -/
theorem scanLib_inRange : (scanLib : AnnLib F).InRange := by
  intro ds set q k
  have hpos : ∀ l : List Nat, l ⊆ set → ∀ p ∈ positions set l, p < set.length := by
    intro l hl p hp
    obtain ⟨x, hx, rfl⟩ := List.mem_map.1 hp
    exact List.idxOf_lt_length_iff.2 (hl hx)
  have hsub : ∀ r : Option F, (collect k r [] (set.map fun j => (ds.sqd q j, j))).reverse.map Prod.snd ⊆ set := by
    intro r x hx
    obtain ⟨y, hy, rfl⟩ := List.mem_map.1 hx
    have hs := (subperm_collect k r [] (set.map fun j => (ds.sqd q j, j))).subset (List.mem_reverse.1 hy)
    rw [List.append_nil] at hs
    obtain ⟨j, hj, rfl⟩ := List.mem_map.1 hs
    exact hj
  refine ⟨hpos _ ?_, fun r => ?_⟩
  · unfold nnAnswer
    dsimp only
    split
    · exact hsub _
    · exact List.nil_subset _
  · show k ≤ (ite _ _ _ : Nat × List Nat).1 → ∀ p ∈ (ite _ _ _ : Nat × List Nat).2.take k, _
    split
    · exact fun _ p hp => hpos _ (hsub _) p (List.take_subset _ _ hp)
    · intro h p hp
      have h : k ≤ 0 := h
      rw [Nat.le_zero.1 h] at hp
      cases hp

/-- With the ANN wrapper, whatever requests for memory fail. -/
example (direct : Bool) (at_ : List Nat) {w' v' : World} {e e' : ErrorCode} {q q' : Option ClObj}
    (h : scClustering sampleCfg (annSpi direct scanLib (some lineData)) pressTypes (some lineObj) (failingWorld [5] at_) = some ((e, q), w'))
    (h' : scClustering sampleCfg (annSpi direct scanLib (some lineData)) pressTypes (some lineObj) (sampleWorld [5]) = some ((e', q'), v')) :
    (e = .noMemory ∨ e = .distSearch) ∨ pressTypes.seedMethod ≠ .batches ∧ e = .tooLarge ∨
      e = e' ∧ (q = none ∧ q' = none ∨ ∃ ob ob', q = some ob ∧ q' = some ob' ∧ AgreeUpTo sampleCfg (SearchesSecondary pressTypes) ob ob') :=
  C67_backend (annFirm direct scanLib_inRange _) _ _ _ (fun _ => rfl) (fun _ _ => rfl) h h'

/-- Such calls return. -/
example : (scClustering sampleCfg (annSpi true scanLib (some lineData)) pressTypes (some lineObj) (sampleWorld [5])).isSome = true ∧
    ((List.range 20).all fun i => (scClustering sampleCfg (annSpi true scanLib (some lineData)) pressTypes (some lineObj) (failingWorld [5] [100 + i])).isSome) = true := by
  decide +kernel

/-- Batches. -/
example (at_ : List Nat) (um : UnassignedMethod) (bs : Nat) :
    ∃ e p w', scClustering sampleCfg (builtinSpi (some lineData)) (batchOpts um bs) (some lineObj) (failingWorld [5] at_) = some ((e, p), w') ∧ (e = .noMemory ∨ e = .distSearch ∨
      SameClusters 6 (scClustering sampleCfg (builtinSpi (some lineData)) (batchOpts um bs) (some lineObj) (failingWorld [5] at_))
        (scClustering sampleCfg (builtinSpi (some lineData)) (batchOpts um bs) (some lineObj) (sampleWorld [5]))) :=
  C67_batches_any lineSpi_ok (builtinFirm _) (press_call (batch_call um bs) at_) (batch_call um bs) (fun _ _ => rfl) rfl (batch_fits um bs)

end Scc
