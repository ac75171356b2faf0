/-
Only comparisons of distances matter: `scc_sc_clustering` with the built-in back end.
-/
import Verif.Proofs.Compare

namespace Scc

variable {F G : Type} [FloatOps F] [FloatOps G]

theorem next_same {α β : Type} {x : M α} {f g : α → M β} (h : ∀ a, f a = g a) : x >>= f = x >>= g := by
  rw [funext h]

theorem bind_same {α β : Type} {x y : M α} {f g : α → M β} (hx : x = y) (h : ∀ a, f a = g a) : x >>= f = y >>= g := by
  rw [hx, funext h]

/-- A radius that compares alike, if there is one. -/
abbrev RadAlike (ds : DataSet F) (ds' : DataSet G) (rs : Bool) (r : F) (r' : G) : Prop := rs = true → SameRadius ds ds' r r'

section
variable {ds : DataSet F} {ds' : DataSet G} (h : SameNear ds ds') {rs : Bool} {r : F} {r' : G} (hr : RadAlike ds ds' rs r r')
include h hr

theorem makeNngFromSearch_same (cfg : Cfg) (o : SearchObj) (n lenQ : Nat) (queries : Option Arr) (k : Nat) (outQ : OutQ) :
    makeNngFromSearch cfg (builtinSpi (some ds)) o n lenQ queries k rs r outQ = makeNngFromSearch cfg (builtinSpi (some ds')) o n lenQ queries k rs r' outQ := by
  unfold makeNngFromSearch
  refine next_same fun a => ?_
  cases a with
  | error => rfl
  | ok p =>
    refine next_same fun d => ?_
    cases d with
    | error => rfl
    | ok d =>
      refine next_same fun _ => ?_
      have : (builtinSpi (some ds)).nnSearch o lenQ queries k rs r p.1 (ptrBuf d.head) = (builtinSpi (some ds')).nnSearch o lenQ queries k rs r' p.1 (ptrBuf d.head) :=
        nnSearch_same h hr o lenQ queries k p.1 (ptrBuf d.head)
      rw [this]

theorem makeNng_same (cfg : Cfg) (n lenS : Nat) (search : Option Arr) (lenQ : Nat) (queries : Option Arr) (k : Nat) (outQ : OutQ) :
    makeNng cfg (builtinSpi (some ds)) n lenS search lenQ queries k rs r outQ = makeNng cfg (builtinSpi (some ds')) n lenS search lenQ queries k rs r' outQ := by
  unfold makeNng
  refine next_same (x := searchInit lenS search) fun a => ?_
  cases a with
  | none => rfl
  | some o =>
    dsimp only
    rw [makeNngFromSearch_same h hr cfg o n lenQ queries k outQ]
    rfl

theorem nngWithSize_same (cfg : Cfg) (n S lenPrimary : Nat) (primary : Option Arr) :
    nngWithSize cfg (builtinSpi (some ds)) n S lenPrimary primary rs r = nngWithSize cfg (builtinSpi (some ds')) n S lenPrimary primary rs r' := by
  unfold nngWithSize nngSizeArcs
  rw [makeNng_same h hr]

theorem addGeneral_same (cfg : Cfg) (n S sum : Nat) (primary : Option Arr) (numQ : Nat) (seedable : Option (Blk Nat)) (d : Digraph) :
    addGeneral cfg (builtinSpi (some ds)) n S sum primary rs r numQ seedable d = addGeneral cfg (builtinSpi (some ds')) n S sum primary rs r' numQ seedable d := by
  unfold addGeneral
  rw [makeNng_same h hr]

theorem typeNngStep_same (cfg : Cfg) (n : Nat) (tcs : Buf Nat) (tc : TypeCount) (primary : Option Arr) :
    typeNngStep cfg (builtinSpi (some ds)) n tcs tc primary rs r = typeNngStep cfg (builtinSpi (some ds')) n tcs tc primary rs r' := by
  funext st i
  unfold typeNngStep
  refine next_same fun c => ?_
  by_cases hc : 0 < c
  · rw [if_pos hc, if_pos hc]
    refine next_same fun p => ?_
    dsimp only
    rw [makeNng_same h hr]
  · rw [if_neg hc, if_neg hc]

theorem nngWithTypes_same (cfg : Cfg) (n S numTypes : Nat) (tcs labels : Buf Nat) (lenPrimary : Nat) (primary : Option Arr) :
    nngWithTypes cfg (builtinSpi (some ds)) n S numTypes tcs labels lenPrimary primary rs r = nngWithTypes cfg (builtinSpi (some ds')) n S numTypes tcs labels lenPrimary primary rs r' := by
  have hc : ∀ sum arr c, combineTypes cfg (builtinSpi (some ds)) n S sum arr primary rs r c = combineTypes cfg (builtinSpi (some ds')) n S sum arr primary rs r' c := by
    intro sum arr c
    unfold combineTypes
    cases c with
    | stop => rfl
    | next st =>
      refine next_same fun _ => next_same fun u => next_same fun _ => next_same fun _ => ?_
      cases u with
      | error => rfl
      | ok d => exact addGeneral_same h hr cfg n S sum primary st.numQ st.seedable d
  unfold nngWithTypes nngTypeArcs
  simp only [typeNngStep_same h hr, hc]

theorem assignBySearch_same (o : SearchObj) (label : Option (Blk Int)) (num : Nat) (ta : Blk Nat) :
    assignBySearch (builtinSpi (some ds)) o label num ta rs r = assignBySearch (builtinSpi (some ds')) o label num ta rs r' := by
  unfold assignBySearch
  refine next_same fun b => next_same fun _ => ?_
  have : ∀ q out nn, (builtinSpi (some ds)).nnSearch o num q 1 rs r out nn = (builtinSpi (some ds')).nnSearch o num q 1 rs r' out nn := fun q out nn => nnSearch_same h hr o num q 1 out nn
  rw [this]

theorem assignUnassigned_same (oa os : Option SearchObj) (um : UnassignedMethod) (label : Option (Blk Int)) (num : Nat) (ta : Blk Nat) :
    assignUnassigned (builtinSpi (some ds)) oa os um label num ta rs r = assignUnassigned (builtinSpi (some ds')) oa os um label num ta rs r' := by
  have key : ∀ o, assignBySearch (builtinSpi (some ds)) o label num ta rs r = assignBySearch (builtinSpi (some ds')) o label num ta rs r' := fun o => assignBySearch_same h hr o label num ta
  unfold assignUnassigned
  by_cases h1 : 0 < num
  · rw [if_pos h1, if_pos h1]
    by_cases h2 : um = .closestAssigned
    · rw [if_pos h2, if_pos h2]
      exact next_same (x := useK [] oa) key
    · rw [if_neg h2, if_neg h2]
      by_cases h3 : um = .closestSeed
      · rw [if_pos h3, if_pos h3]
        exact next_same (x := useK [] os) key
      · rw [if_neg h3, if_neg h3]
  · rw [if_neg h1, if_neg h1]

theorem secondRound_same (cfg : Cfg) (oa os : Option SearchObj) (um2 : UnassignedMethod) (n : Nat) (label : Option (Blk Int)) (ta : Blk Nat) :
    secondRound cfg (builtinSpi (some ds)) oa os um2 n label ta rs r = secondRound cfg (builtinSpi (some ds')) oa os um2 n label ta rs r' := by
  unfold secondRound
  by_cases h1 : um2 ≠ .ignore
  · rw [if_pos h1, if_pos h1]
    refine next_same fun p => ?_
    dsimp only
    rw [assignUnassigned_same h hr]
  · rw [if_neg h1, if_neg h1]

theorem batchLoop_same (cfg : Cfg) (o : SearchObj) (ids : BatchIds) (n S : Nat) (ignore : Bool) (primary : Option (Buf Bool)) (bs fuel cur : Nat) (st : RunSt) :
    batchLoop cfg (builtinSpi (some ds)) o ids n S ignore rs r primary bs fuel cur st = batchLoop cfg (builtinSpi (some ds')) o ids n S ignore rs r' primary bs fuel cur st := by
  induction fuel generalizing cur st with
  | zero =>
    rw [batchLoop.eq_def cfg (builtinSpi (some ds)) o ids n S ignore rs r primary bs 0 cur st, batchLoop.eq_def cfg (builtinSpi (some ds')) o ids n S ignore rs r' primary bs 0 cur st]
  | succ fuel ih =>
    rw [batchLoop.eq_def cfg (builtinSpi (some ds)) o ids n S ignore rs r primary bs (fuel + 1) cur st, batchLoop.eq_def cfg (builtinSpi (some ds')) o ids n S ignore rs r' primary bs (fuel + 1) cur st]
    dsimp only
    by_cases h1 : cur < n
    · rw [if_pos h1, if_pos h1]
      refine next_same fun p => ?_
      obtain ⟨a, b, c, d⟩ := p
      dsimp only
      by_cases h2 : c = 0
      · rw [if_pos h2, if_pos h2]
      · rw [if_neg h2, if_neg h2]
        refine next_same fun _ => ?_
        have : ∀ q nn, (builtinSpi (some ds)).nnSearch o c q S rs r .same nn = (builtinSpi (some ds')).nnSearch o c q S rs r' .same nn := fun q nn => nnSearch_same h hr o c q S .same nn
        rw [this]
        refine next_same fun res => ?_
        cases res with
        | none => rfl
        | some res =>
          refine next_same fun nn => next_same fun e => ?_
          cases e with
          | stop => rfl
          | next st => exact ih _ _
    · rw [if_neg h1, if_neg h1]

theorem batchesMain_same (cfg : Cfg) (o : SearchObj) (cl : Clustering) (S : Nat) (um : UnassignedMethod) (lenPrimary : Nat) (primary : Option (Buf Nat)) (bs : Nat) (batch out : Blk Nat)
    (assigned : Blk Bool) : batchesMain cfg (builtinSpi (some ds)) o cl S um rs r lenPrimary primary bs batch out assigned =
      batchesMain cfg (builtinSpi (some ds')) o cl S um rs r' lenPrimary primary bs batch out assigned := by
  have key : ∀ ids n pr b1 o1 a1 l1, runBatches cfg (builtinSpi (some ds)) o ids n S (decide (um = .ignore)) rs r pr bs b1 o1 a1 l1 =
      runBatches cfg (builtinSpi (some ds')) o ids n S (decide (um = .ignore)) rs r' pr bs b1 o1 a1 l1 := by
    intro ids n pr b1 o1 a1 l1
    unfold runBatches
    exact congrArg (· >>= _) (batchLoop_same h hr cfg o ids n S _ pr bs n 0 _)
  unfold batchesMain
  refine next_same fun p => ?_
  obtain ⟨a, c⟩ := p
  dsimp only
  by_cases h1 : (!a) = true
  · rw [if_pos h1, if_pos h1]; rfl
  · rw [if_neg h1, if_neg h1]
    refine next_same fun pr => ?_
    rw [key]
    rfl

omit hr in
theorem clusterBatches_same {rs : Bool} (hr : RadAlike ds ds' rs r r') (cfg : Cfg) (cl : Clustering) (S : Nat) (um : UnassignedMethod) (lenPrimary : Nat) (primary : Option (Buf Nat)) (batchSize : Nat) :
    clusterBatches cfg (builtinSpi (some ds)) cl S um rs r lenPrimary primary batchSize = clusterBatches cfg (builtinSpi (some ds')) cl S um rs r' lenPrimary primary batchSize := by
  have e1 : (builtinSpi (some ds)).valid = (builtinSpi (some ds')).valid := by
    show (some ds).any DataSet.isInitialized = (some ds').any DataSet.isInitialized
    exact h.exact.init.trans h.exact'.init.symm
  have e2 : (builtinSpi (some ds)).numPoints = (builtinSpi (some ds')).numPoints := h.num
  have e3 : (rs = true ∧ FloatOps.le r FloatOps.zero = true) = (rs = true ∧ FloatOps.le r' FloatOps.zero = true) := by
    by_cases hrs : rs = true
    · rw [(hr hrs).sign]
    · simp [hrs]
  have e : batchArgsError (builtinSpi (some ds)) cl S um rs r lenPrimary primary = batchArgsError (builtinSpi (some ds')) cl S um rs r' lenPrimary primary := by
    unfold batchArgsError
    simp only [e1, e2, e3]
  unfold clusterBatches
  rw [e]
  cases batchArgsError (builtinSpi (some ds')) cl S um rs r' lenPrimary primary with
  | some => rfl
  | none =>
    refine next_same (x := searchInit cl.n none) fun o => ?_
    cases o with
    | none => rfl
    | some o =>
      refine next_same fun a => next_same fun b => next_same fun c => ?_
      cases a with
      | none => rfl
      | some a =>
        cases b with
        | none => rfl
        | some b =>
          cases c with
          | none => rfl
          | some c => exact batchesMain_same h hr cfg o cl S um lenPrimary primary _ a b c

end

/-! ### The assignment stages and the whole call -/

theorem initNN_same (ds : DataSet F) (ds' : DataSet G) (need : Bool) (len : Nat) (arr : Option (Blk Nat)) (line : Nat) :
    (initNN (builtinSpi (some ds)) need len arr line : M (Except ErrorCode (Option SearchObj))) = initNN (builtinSpi (some ds')) need len arr line := by
  cases need with
  | false => rfl
  | true =>
    show (searchInit len (arr.map fun b => ⟨[b.id], b.buf⟩) >>= _) = (searchInit len (arr.map fun b => ⟨[b.id], b.buf⟩) >>= _)
    refine next_same fun o => ?_
    cases o <;> rfl

theorem closeNN_same (ds : DataSet F) (ds' : DataSet G) (o : Option SearchObj) : closeNN (builtinSpi (some ds)) o = closeNN (builtinSpi (some ds')) o := by
  cases o <;> rfl

theorem closeAll_same (ds : DataSet F) (ds' : DataSet G) (son : Option (Blk Nat)) (ta : Nat) (oa os : Option SearchObj) :
    closeAll (builtinSpi (some ds)) son ta oa os = closeAll (builtinSpi (some ds')) son ta oa os := by
  unfold closeAll
  rw [closeNN_same ds ds' oa, closeNN_same ds ds' os]

section
variable {ds : DataSet F} {ds' : DataSet G} (h : SameNear ds ds')
include h

theorem assignRemaining_same {rs rs2 : Bool} {r r2 : F} {r' r2' : G} (hr : RadAlike ds ds' rs r r') (hr2 : RadAlike ds ds' rs2 r2 r2') (cfg : Cfg) (n total numSon : Nat) (label : Option (Blk Int))
    (son : Option (Blk Nat)) (sr : SeedResult) (um : UnassignedMethod) (lenPrimary : Nat) (primary : Option (Buf Nat)) (um2 : UnassignedMethod) :
    assignRemaining cfg (builtinSpi (some ds)) n total numSon label son sr um rs r lenPrimary primary um2 rs2 r2 =
      assignRemaining cfg (builtinSpi (some ds')) n total numSon label son sr um rs r' lenPrimary primary um2 rs2 r2' := by
  have key : ∀ (oa os : Option SearchObj) ta, searchRounds cfg (builtinSpi (some ds)) n label son oa os ta um rs r lenPrimary primary um2 rs2 r2 =
      searchRounds cfg (builtinSpi (some ds')) n label son oa os ta um rs r' lenPrimary primary um2 rs2 r2' := by
    intro oa os ta
    unfold searchRounds
    refine next_same fun p => ?_
    obtain ⟨c, num⟩ := p
    dsimp only
    rw [assignUnassigned_same h hr]
    refine next_same fun q => ?_
    obtain ⟨ec, l, c⟩ := q
    dsimp only
    by_cases h1 : ec ≠ .ok
    · rw [if_pos h1, if_pos h1, closeAll_same ds ds']
    · rw [if_neg h1, if_neg h1, secondRound_same h hr2, closeAll_same ds ds']
  unfold assignRemaining
  refine bind_same (α := Except ErrorCode (Option SearchObj)) (initNN_same ds ds' (decide (um = .closestAssigned ∨ um2 = .closestAssigned)) numSon son 514) fun oa => ?_
  cases oa with
  | error => rfl
  | ok oa =>
    refine bind_same (α := Except ErrorCode (Option SearchObj)) (initNN_same ds ds' (decide (um = .closestSeed ∨ um2 = .closestSeed)) sr.count sr.seeds 529) fun os => ?_
    cases os with
    | error => exact next_same fun _ => congrArg (· >>= _) (closeNN_same ds ds' oa)
    | ok os =>
      refine next_same fun ta => ?_
      cases ta with
      | none => 
        refine next_same fun _ => ?_
        rw [closeNN_same ds ds' oa, closeNN_same ds ds' os]
      | some ta => exact key oa os ta

theorem makeClusters_same {rs rs2 : Bool} {r r2 : F} {r' r2' : G} (hr : RadAlike ds ds' rs r r') (hr2 : RadAlike ds ds' rs2 r2 r2') (cfg : Cfg) (cl : Clustering) (sr : SeedResult) (nng : Digraph)
    (ordered : Bool) (um : UnassignedMethod) (lenPrimary : Nat) (primary : Option (Buf Nat)) (um2 : UnassignedMethod) :
    makeClusters cfg (builtinSpi (some ds)) cl sr nng ordered um rs r lenPrimary primary um2 rs2 r2 =
      makeClusters cfg (builtinSpi (some ds')) cl sr nng ordered um rs r' lenPrimary primary um2 rs2 r2' := by
  unfold makeClusters
  simp only [assignRemaining_same h hr hr2]

/-- The radii of a stage. -/
theorem resolveRadius_same {o : Options F} {o' : Options G} (hs : o.seedRadius = o'.seedRadius) (hseed : o.seedRadius = .useSupplied → SameRadius ds ds' o.seedSupplied o'.seedSupplied)
    (um : UnassignedMethod) (m : RadiusMethod) {r : F} {r' : G} (hr : m = .useSupplied → SameRadius ds ds' r r') :
    (resolveRadius o um m r).1 = (resolveRadius o' um m r').1 ∧
      ((resolveRadius o um m r).1 = .useSupplied → SameRadius ds ds' (resolveRadius o um m r).2 (resolveRadius o' um m r').2) := by
  unfold resolveRadius
  by_cases h1 : um = .ignore
  · rw [if_pos h1, if_pos h1]
    exact ⟨rfl, nofun⟩
  · rw [if_neg h1, if_neg h1]
    by_cases h2 : m = .useSeedRadius
    · rw [if_pos h2, if_pos h2]
      exact ⟨hs, hseed⟩
    · rw [if_neg h2, if_neg h2]
      exact ⟨rfl, hr⟩

theorem optionsError_same {o : Options F} {o' : Options G} (ho : SameOptions ds ds' o o') (n : Nat) : optionsError o n = optionsError o' n := by
  have key : ∀ {m : RadiusMethod} {r : F} {r' : G}, (m = .useSupplied → SameRadius ds ds' r r') →
      (m = .useSupplied ∧ FloatOps.le r FloatOps.zero = true) = (m = .useSupplied ∧ FloatOps.le r' FloatOps.zero = true) := by
    intro m r r' hr
    by_cases hm : m = .useSupplied
    · rw [(hr hm).sign]
    · simp [hm]
  unfold optionsError typeOptionsError primaryOptionsError methodOptionsError
  simp only [key ho.seed, key ho.primaryR, key ho.secondaryR]
  simp only [ho.version, ho.size, ho.numTypes, ho.typeConstraints, ho.lenTypeLabels, ho.typeLabels, ho.seedMethod, ho.lenPrimary, ho.primary, ho.primaryMethod, ho.secondaryMethod, ho.seedRadius,
    ho.primaryRadius, ho.secondaryRadius]

/-- A stage needs an estimate of the radius. -/
def NeedsEstimate (o : Options F) : Prop := (o.primaryMethod ≠ .ignore ∧ o.primaryRadius = .useEstimated) ∨ (o.secondaryMethod ≠ .ignore ∧ o.secondaryRadius = .useEstimated)

/-- Estimates belong together if both or none are positive, and if they are positive, the same pairs of points are within them. -/
def EstAlike (ds : DataSet F) (ds' : DataSet G) (x : F) (y : G) : Prop :=
  FloatOps.lt FloatOps.zero x = FloatOps.lt FloatOps.zero y ∧ (FloatOps.lt FloatOps.zero x = true → SameRadius ds ds' x y)

/-- The estimates belong together whatever the digraph. -/
def SameEstimates (ds : DataSet F) (ds' : DataSet G) (S : Nat) : Prop :=
  ∀ sr nng, Sim (OutAlike (EstAlike ds ds')) (estimateAvg (builtinSpi (some ds)) sr nng S) (estimateAvg (builtinSpi (some ds')) sr nng S)

/-- The radius of a stage, in both calls. -/
def StageAlike (ds : DataSet F) (ds' : DataSet G) (a : RadiusMethod × F) (b : RadiusMethod × G) : Prop := a.1 = b.1 ∧ (a.1 = .useSupplied → SameRadius ds ds' a.2 b.2)

omit h in
theorem useEstimate_rel {x : F} {y : G} (hx : EstAlike ds ds' x y) {a : RadiusMethod × F} {b : RadiusMethod × G} (hab : StageAlike ds ds' a b) :
    Option.Rel (StageAlike ds ds') (useEstimate x a) (useEstimate y b) := by
  unfold useEstimate
  refine rel_ite (by rw [hab.1]) (fun _ => rel_ite (by rw [hx.1]) (fun hp => .some ⟨rfl, fun _ => hx.2 hp⟩) fun _ => .none) fun _ => .some hab

omit h in
theorem estimateRadii_sim {S : Nat} (hest : SameEstimates ds ds' S) (sr : SeedResult) (nng : Digraph)
    {a c : RadiusMethod × F} {b d : RadiusMethod × G} (hab : StageAlike ds ds' a b) (hcd : StageAlike ds ds' c d) :
    Sim (OutAlike fun x y => StageAlike ds ds' x.1 y.1 ∧ StageAlike ds ds' x.2 y.2) (estimateRadii (builtinSpi (some ds)) sr nng S a c) (estimateRadii (builtinSpi (some ds')) sr nng S b d) := by
  unfold estimateRadii
  rw [← hab.1, ← hcd.1]
  by_cases hc : a.1 = .useEstimated ∨ c.1 = .useEstimated
  swap
  · rw [if_neg hc, if_neg hc]
    exact sim_pure (.ok ⟨hab, hcd⟩)
  rw [if_pos hc, if_pos hc]
  refine sim_bind (hest sr nng) fun x y hxy => ?_
  cases hxy with
  | error e => exact sim_next fun _ => sim_pure (.error e)
  | ok hxy =>
    rename_i x y
    have k1 := useEstimate_rel hxy hab
    have k2 := useEstimate_rel hxy hcd
    dsimp only
    generalize useEstimate x a = p at *
    generalize useEstimate y b = p' at *
    generalize useEstimate x c = q at *
    generalize useEstimate y d = q' at *
    cases k1 with
    | none => exact sim_next fun _ => sim_fail _ _ _ _
    | some k1 =>
      cases k2 with
      | none => exact sim_next fun _ => sim_fail _ _ _ _
      | some k2 => exact sim_pure (.ok ⟨k1, k2⟩)

theorem clusteringFromNng_same {o : Options F} {o' : Options G} (ho : SameOptions ds ds' o o') (hest : NeedsEstimate o → SameEstimates ds ds' o.sizeConstraint)
    (hacc : o.seedRadius = .noRadius ∨ o.seedRadius = .useSupplied) (cfg : Cfg) (cl : Clustering) (nng : Digraph)
    (m : SeedMethod) : clusteringFromNng cfg (builtinSpi (some ds)) cl nng o m = clusteringFromNng cfg (builtinSpi (some ds')) cl nng o' m := by
  have h1 : StageAlike ds ds' _ _ := resolveRadius_same h ho.seedRadius ho.seed o.primaryMethod o.primaryRadius ho.primaryR
  have h2 : StageAlike ds ds' _ _ := resolveRadius_same h ho.seedRadius ho.seed o.secondaryMethod o.secondaryRadius ho.secondaryR
  have key : ∀ (um : UnassignedMethod) (m : RadiusMethod) (r : F), (resolveRadius o um m r).1 = .useEstimated → um ≠ .ignore ∧ m = .useEstimated := by
    intro um m r
    unfold resolveRadius
    by_cases g1 : um = .ignore
    · rw [if_pos g1]; nofun
    · rw [if_neg g1]
      by_cases g2 : m = .useSeedRadius
      · rw [if_pos g2]
        rcases hacc with hacc | hacc <;> rw [hacc] <;> nofun
      · rw [if_neg g2]
        exact fun hm => ⟨g1, hm⟩
  have k1 := key o.primaryMethod o.primaryRadius o.primarySupplied
  have k2 := key o.secondaryMethod o.secondaryRadius o.secondarySupplied
  refine sim_eq ?_
  unfold clusteringFromNng
  rw [← ho.size, ← ho.primaryMethod, ← ho.primaryRadius, ← ho.secondaryMethod, ← ho.secondaryRadius, ← ho.numTypes, ← ho.lenPrimary, ← ho.primary]
  refine sim_next fun s => ?_
  cases s with
  | error => exact sim_refl
  | ok sr =>
    generalize resolveRadius o o.primaryMethod o.primaryRadius o.primarySupplied = a at *
    generalize resolveRadius o' o.primaryMethod o.primaryRadius o'.primarySupplied = a' at *
    generalize resolveRadius o o.secondaryMethod o.secondaryRadius o.secondarySupplied = b at *
    generalize resolveRadius o' o.secondaryMethod o.secondaryRadius o'.secondarySupplied = b' at *
    have hr : Sim (OutAlike fun x y => StageAlike ds ds' x.1 y.1 ∧ StageAlike ds ds' x.2 y.2) (estimateRadii (builtinSpi (some ds)) sr nng o.sizeConstraint a b)
        (estimateRadii (builtinSpi (some ds')) sr nng o.sizeConstraint a' b') := by
      by_cases hn : a.1 = .useEstimated ∨ b.1 = .useEstimated
      · exact estimateRadii_sim (hest (hn.imp k1 k2)) sr nng h1 h2
      · unfold estimateRadii
        rw [← h1.1, ← h2.1, if_neg hn, if_neg hn]
        exact sim_pure (.ok ⟨h1, h2⟩)
    dsimp only
    refine sim_bind hr fun x y hxy => ?_
    cases hxy with
    | error e => exact sim_refl
    | ok hxy =>
      rename_i x y
      obtain ⟨x1, x2⟩ := x
      obtain ⟨y1, y2⟩ := y
      obtain ⟨g1, g2⟩ := hxy
      dsimp only at g1 g2 ⊢
      refine sim_next fun p => ?_
      rw [← g1.1, ← g2.1, makeClusters_same h (fun hd => g1.2 (of_decide_eq_true hd)) (fun hd => g2.2 (of_decide_eq_true hd))]
      exact sim_refl

theorem buildNng_same {o : Options F} {o' : Options G} (ho : SameOptions ds ds' o o') (cfg : Cfg) (n : Nat) : buildNng cfg (builtinSpi (some ds)) n o = buildNng cfg (builtinSpi (some ds')) n o' := by
  have hr : RadAlike ds ds' (decide (o.seedRadius = .useSupplied)) o.seedSupplied o'.seedSupplied := fun hd => ho.seed (of_decide_eq_true hd)
  unfold buildNng
  rw [nngWithSize_same h hr, nngWithTypes_same h hr, ho.numTypes, ho.size, ho.lenPrimary, ho.primary, ho.seedRadius, ho.typeConstraints, ho.typeLabels]

/-- What is known when the check of the options is over. -/
def OptGood (o : Options F) : Option (ErrorCode × Nat × String) → Prop
  | some x => x.1 ≠ .ok
  | none => o.seedRadius = .noRadius ∨ o.seedRadius = .useSupplied

omit h in
theorem typeOptionsError_ne_ok (o : Options F) (n : Nat) : ∀ x ∈ typeOptionsError o n, x.1 ≠ .ok := by
  unfold typeOptionsError
  repeat' (first | split | (intro x hx; cases hx; nofun) | nofun)

omit h in
theorem methodOptionsError_good (o : Options F) : OptGood o (methodOptionsError o) := by
  unfold methodOptionsError
  by_cases c1 : o.primaryMethod = .unknown
  · rw [if_pos c1]; nofun
  rw [if_neg c1]
  by_cases c2 : o.secondaryMethod = .anyNeighbor
  · rw [if_pos c2]; nofun
  rw [if_neg c2]
  by_cases c3 : o.secondaryMethod = .unknown
  · rw [if_pos c3]; nofun
  rw [if_neg c3]
  by_cases c4 : o.seedRadius ≠ .noRadius ∧ o.seedRadius ≠ .useSupplied
  · rw [if_pos c4]; nofun
  rw [if_neg c4]
  have hg : o.seedRadius = .noRadius ∨ o.seedRadius = .useSupplied := by
    by_cases g : o.seedRadius = .noRadius
    · exact Or.inl g
    · exact Or.inr (by by_contra g2; exact c4 ⟨g, g2⟩)
  have hn : OptGood o none := hg
  clear hg c4
  repeat' (first | exact hn | exact fun hx => ErrorCode.noConfusion hx | split)

omit h in
/-- A call whose options are accepted has no seed radius or a supplied one. -/
theorem optionsError_good {o : Options F} {n : Nat} {e : Option (ErrorCode × Nat × String)} (he : optionsError o n = some e) :
    OptGood o e := by
  unfold optionsError at he
  by_cases c1 : o.version ≠ optionsVersion
  · rw [if_pos c1] at he; cases he; nofun
  rw [if_neg c1] at he
  by_cases c2 : o.sizeConstraint < 2
  · rw [if_pos c2] at he; cases he; nofun
  rw [if_neg c2] at he
  by_cases c3 : n < o.sizeConstraint
  · rw [if_pos c3] at he; cases he; nofun
  rw [if_neg c3] at he
  have ht := typeOptionsError_ne_ok o n
  cases hty : typeOptionsError o n with
  | some x => rw [hty] at he; cases he; exact ht x (by rw [hty]; rfl)
  | none =>
    rw [hty] at he
    dsimp only at he
    by_cases c4 : o.seedMethod = .unknown
    · rw [if_pos c4] at he; cases he; nofun
    rw [if_neg c4] at he
    have hp : ∀ y, primaryOptionsError o = some (some y) → y.1 ≠ .ok := by
      intro y hy
      unfold primaryOptionsError at hy
      cases hb : o.primary with
      | none =>
        rw [hb] at hy
        dsimp only at hy
        by_cases c5 : 0 < o.lenPrimary
        · rw [if_pos c5] at hy; cases hy; nofun
        · rw [if_neg c5] at hy; cases hy
      | some b =>
        rw [hb] at hy
        dsimp only at hy
        by_cases c5 : o.lenPrimary = 0
        · rw [if_pos c5] at hy; cases hy; nofun
        · rw [if_neg c5] at hy
          cases hs : primarySorted o.lenPrimary b with
          | none => rw [hs] at hy; cases hy
          | some v => cases v <;> rw [hs] at hy <;> cases hy; nofun
    cases hpr : primaryOptionsError o with
    | none => rw [hpr] at he; cases he
    | some y =>
      rw [hpr] at he
      cases y with
      | some y => cases he; exact hp y hpr
      | none => cases he; exact methodOptionsError_good o

/-- The same call on the two data sets. -/
theorem scClustering_same {o : Options F} {o' : Options G} (ho : SameOptions ds ds' o o') (hest : NeedsEstimate o → SameEstimates ds ds' o.sizeConstraint) (cfg : Cfg) (p : Option ClObj) :
    scClustering cfg (builtinSpi (some ds)) o p = scClustering cfg (builtinSpi (some ds')) o' p := by
  have e1 : (builtinSpi (some ds)).valid = (builtinSpi (some ds')).valid := by
    show (some ds).any DataSet.isInitialized = (some ds').any DataSet.isInitialized
    exact h.exact.init.trans h.exact'.init.symm
  have e2 : (builtinSpi (some ds)).numPoints = (builtinSpi (some ds')).numPoints := h.num
  unfold scClustering
  refine next_same fun valid => ?_
  cases p with
  | none => rfl
  | some ob =>
    cases valid with
    | false => rfl
    | true =>
      dsimp only
      rw [e1, e2, ← ho.seedMethod, ← ho.size, ← ho.primaryMethod, ← ho.seedRadius, ← ho.lenPrimary, ← ho.primary, ← ho.batchSize]
      by_cases c1 : (!(builtinSpi (some ds')).valid) = true
      · rw [if_pos c1, if_pos c1]
      · rw [if_neg c1, if_neg c1]
        by_cases c2 : (builtinSpi (some ds')).numPoints ≠ ob.cl.n
        · rw [if_pos c2, if_pos c2]
        · rw [if_neg c2, if_neg c2]
          unfold checkClusterOptions
          rw [← optionsError_same h ho]
          cases hc : optionsError o ob.cl.n with
          | none => rfl
          | some e =>
            have hg := optionsError_good hc
            cases e with
            | some x =>
              obtain ⟨ec, line, msg⟩ := x
              funext w
              show (if ec ≠ .ok then _ else _ : M _) _ = (if ec ≠ .ok then _ else _ : M _) _
              have hg' : ec ≠ .ok := hg
              rw [if_pos hg', if_pos hg']
            | none =>
              refine next_same fun ec => ?_
              by_cases c3 : ec ≠ .ok
              · rw [if_pos c3, if_pos c3]
              rw [if_neg c3, if_neg c3]
              by_cases c4 : ob.cl.numClusters ≠ 0
              · rw [if_pos c4, if_pos c4]
              rw [if_neg c4, if_neg c4]
              cases hm : o.seedMethod with
              | unknown => rfl
              | batches =>
                exact bind_same (clusterBatches_same h (fun hd => ho.seed (of_decide_eq_true hd)) ..) fun _ => rfl
              | method m =>
                refine bind_same ?_ fun _ => rfl
                unfold clusterByNng
                refine bind_same (buildNng_same h ho cfg _) fun r => ?_
                cases r with
                | error => rfl
                | ok nng => exact bind_same (clusteringFromNng_same h ho hest hg cfg _ _ m) fun _ => rfl

end
end Scc
