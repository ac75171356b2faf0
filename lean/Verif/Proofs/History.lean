/-
The invariant of histories of API calls.
-/
import Verif.Proofs.Objects
import Verif.Proofs.Check
import Verif.Proofs.BatchCall
import Verif.Proofs.HiCall
import Verif.Proofs.StatsPure

set_option linter.unusedSimpArgs false
set_option linter.unusedVariables false

namespace Scc

variable {F : Type} [FloatOps F]

/-- An object as the library leaves it. -/
structure Fine (cfg : Cfg) (U : Multiset Nat) (ob : ClObj) : Prop where
  init : ob.cl.isInitialized cfg = true
  label : ∀ lb, ob.cl.label = some lb → ob.cl.n ≤ lb.buf.len ∧ (ob.cl.external = true → lb.id ∈ U)
  filled : 0 < ob.cl.numClusters → ∀ lb, ob.cl.label = some lb → Filled lb.buf ob.cl.n

/-- Memory consists of the client's blocks and the blocks that belong to objects. -/
structure Inv (cfg : Cfg) (U : Multiset Nat) (objs : List ClObj) (w : World) : Prop where
  live : w.live = U + owned objs
  fine : ∀ ob ∈ objs, Fine cfg U ob

theorem owned_append (l l' : List ClObj) : owned (l ++ l') = owned l + owned l' := by simp [owned]

theorem owned_eraseIdx {objs : List ClObj} {i : Nat} {ob : ClObj} (h : objs[i]? = some ob) : owned objs = ob.own + owned (objs.eraseIdx i) := by
  induction objs generalizing i with
  | nil => simp at h
  | cons x l ih =>
    cases i with
    | zero => simp at h; subst h; simp [owned]
    | succ i =>
      simp only [List.getElem?_cons_succ] at h
      have := ih h
      simp only [owned, List.map_cons, List.sum_cons, List.eraseIdx_cons_succ] at this ⊢
      rw [this]; abel

theorem owned_set {objs : List ClObj} {i : Nat} {ob ob' : ClObj} (h : objs[i]? = some ob) : owned (objs.set i ob') = ob'.own + owned (objs.eraseIdx i) := by
  induction objs generalizing i with
  | nil => simp at h
  | cons x l ih =>
    cases i with
    | zero => simp [owned]
    | succ i =>
      simp only [List.getElem?_cons_succ] at h
      have := ih h
      simp only [owned, List.map_cons, List.sum_cons, List.set_cons_succ, List.eraseIdx_cons_succ] at this ⊢
      rw [this]; abel

theorem Inv.congr {cfg : Cfg} {U : Multiset Nat} {objs : List ClObj} {w w' : World} (h : Inv cfg U objs w) (hl : w'.live = w.live) : Inv cfg U objs w' := ⟨by rw [hl, h.live], h.fine⟩

theorem Inv.push {cfg : Cfg} {U : Multiset Nat} {objs : List ClObj} {w w' : World} (h : Inv cfg U objs w) {ob : ClObj} (hf : Fine cfg U ob) (hl : w'.live = ob.own + w.live) :
    Inv cfg U (objs ++ [ob]) w' := by
  refine ⟨?_, ?_⟩
  · rw [hl, h.live, owned_append]
    simp only [owned, List.map_cons, List.map_nil, List.sum_cons, List.sum_nil, add_zero]
    abel
  · intro x hx
    rcases List.mem_append.1 hx with hx | hx
    · exact h.fine x hx
    · rw [List.mem_singleton] at hx; rw [hx]; exact hf

theorem Inv.usable {cfg : Cfg} {U : Multiset Nat} {objs : List ClObj} {w : World} (h : Inv cfg U objs w) {i : Nat} {ob : ClObj} (hi : objs[i]? = some ob) :
    Usable cfg ob w ∧ {ob.id} + ptrOwn ob.cl.label ≤ w.live := by
  have hf := h.fine ob (List.mem_of_getElem? hi)
  have hown := owned_eraseIdx hi
  have hle : {ob.id} + ptrOwn ob.cl.label ≤ w.live := by
    rw [h.live, hown]
    unfold ClObj.own
    cases hx : ob.cl.external with
    | false =>
      rw [if_neg (by simp)]
      exact le_trans (Multiset.le_add_right _ _) (Multiset.le_add_left _ _)
    | true =>
      rw [if_pos rfl, add_zero]
      cases hl : ob.cl.label with
      | none => simp only [ptrOwn_none, add_zero]; exact le_trans (Multiset.le_add_right _ _) (Multiset.le_add_left _ _)
      | some lb =>
        have := (hf.label lb hl).2 hx
        rw [ptrOwn_some, add_comm]
        exact add_le_add (Multiset.singleton_le.2 this) (Multiset.le_add_right _ _)
  refine ⟨⟨hf.init, Multiset.mem_of_le hle (by simp), fun lb hlb => ⟨?_, (hf.label lb hlb).1⟩⟩, hle⟩
  exact Multiset.mem_of_le hle (by simp [hlb])

theorem Inv.put {cfg : Cfg} {U : Multiset Nat} {objs : List ClObj} {w w' : World} (h : Inv cfg U objs w) {i : Nat} {ob ob' : ClObj} (hi : objs[i]? = some ob) (hf : Fine cfg U ob')
    {M : Multiset Nat} (h1 : w.live = ob.own + M) (h2 : w'.live = ob'.own + M) : Inv cfg U (objs.set i ob') w' := by
  have h3 : M = U + owned (objs.eraseIdx i) := by
    have := h.live
    rw [h1, owned_eraseIdx hi] at this
    have e : U + (ob.own + owned (objs.eraseIdx i)) = ob.own + (U + owned (objs.eraseIdx i)) := by abel
    rw [e] at this
    exact add_left_cancel this
  refine ⟨by rw [h2, owned_set hi, h3]; abel, fun x hx => ?_⟩
  rcases List.mem_or_eq_of_mem_set hx with hx | hx
  · exact h.fine x hx
  · rw [hx]; exact hf

/-- Ownership after a run that left labels. -/
theorem own_labelled {cfg : Cfg} {U : Multiset Nat} {ob : ClObj} {k id : Nat} {l : Buf Int} {cl' : Clustering} {w w' : World} {M : Multiset Nat} (h : Labelled ob.cl k id l cl')
    (hlive : w.live = ptrOwn ob.cl.label + M) (hlive' : w'.live = {id} + M) (hid : {ob.id} + ptrOwn ob.cl.label ≤ w.live) :
    ∃ L, w.live = ob.own + L ∧ w'.live = (ClObj.mk ob.id cl').own + L := by
  obtain ⟨L0, hL0⟩ := Multiset.le_iff_exists_add.1 hid
  have hM : M = {ob.id} + L0 := by
    rw [hL0] at hlive
    have e : {ob.id} + ptrOwn ob.cl.label + L0 = ptrOwn ob.cl.label + ({ob.id} + L0) := by abel
    rw [e] at hlive
    exact (add_left_cancel hlive).symm
  subst hM
  unfold ClObj.own
  dsimp only
  rw [h.eq]
  dsimp only
  cases hl : ob.cl.label with
  | none =>
    rw [hl] at hlive
    refine ⟨L0, ?_, ?_⟩
    · rw [hlive]; cases ob.cl.external <;> simp
    · rw [hlive']; simp
  | some lb =>
    rw [hl] at hlive
    obtain ⟨hid', -⟩ := h.old lb hl
    cases hx : ob.cl.external with
    | true => exact ⟨{lb.id} + L0, by rw [hlive]; simp [Multiset.cons_swap], by rw [hlive', hid']; simp [Multiset.cons_swap]⟩
    | false => exact ⟨L0, by rw [hlive]; simp [Multiset.cons_swap], by rw [hlive', hid']; simp [Multiset.cons_swap]⟩

theorem own_untouched {ob : ClObj} {cl' : Clustering} (h : Untouched ob.cl cl') : (ClObj.mk ob.id cl').own = ob.own := by
  by_cases hl : ob.cl.label = none
  · unfold ClObj.own
    dsimp only
    rw [h.flag]
    dsimp only
    rw [hl]
    cases cl'.external <;> cases ob.cl.external <;> simp
  · rw [h.same hl]

theorem fine_untouched {cfg : Cfg} {U : Multiset Nat} {ob : ClObj} {cl' : Clustering} (hf : Fine cfg U ob) (h : Untouched ob.cl cl') : Fine cfg U ⟨ob.id, cl'⟩ := by
  by_cases hl : ob.cl.label = none
  · have e := h.flag
    have hlab : cl'.label = none := by rw [e]; exact hl
    refine ⟨?_, fun lb hlb => ?_, fun _ lb hlb => ?_⟩
    · dsimp only; rw [e]; exact isInitialized_iff.2 (isInitialized_iff.1 hf.init)
    · dsimp only at hlb; rw [hlab] at hlb; cases hlb
    · dsimp only at hlb; rw [hlab] at hlb; cases hlb
  · rw [h.same hl]; exact hf

theorem fine_labelled {cfg : Cfg} {U : Multiset Nat} {ob : ClObj} {k id : Nat} {l : Buf Int} {cl' : Clustering} (hf : Fine cfg U ob) (h : Labelled ob.cl k id l cl') (hk : k ≤ cfg.clabelMax)
    (hfill : 0 < k → Filled l ob.cl.n) : Fine cfg U ⟨ob.id, cl'⟩ := by
  obtain ⟨h1, h2, h3, h4, h5⟩ := isInitialized_iff.1 hf.init
  rw [h.eq]
  refine ⟨isInitialized_iff.2 ⟨h1, h2, h3, hk, fun _ => nofun⟩, fun lb hlb => ?_, fun hk' lb hlb => ?_⟩
  · dsimp only at hlb ⊢
    cases hlb
    dsimp only
    cases hl : ob.cl.label with
    | none => exact ⟨le_of_eq (h.new hl).symm, by simp⟩
    | some lb =>
      obtain ⟨g1, g2⟩ := h.old lb hl
      refine ⟨by rw [g2]; exact (hf.label lb hl).1, fun hx => ?_⟩
      rw [g1]; exact (hf.label lb hl).2 (by simpa [hl] using hx)
  · cases hlb; exact hfill hk'

theorem LabelsAre.filled {cfg : Cfg} {n : Nat} {b : Buf Int} {L : Nat → Option Nat} (h : LabelsAre cfg n b L) : Filled b n := fun v hv => ⟨_, h v hv⟩

/-- What a step establishes: the invariant, and the code of a failure in the error record; success leaves that record alone if `K`. -/
structure StepPost (cfg : Cfg) (U : Multiset Nat) (w : World) (K : Prop) (r : ErrorCode × List ClObj) (w' : World) : Prop where
  inv : Inv cfg U r.2 w'
  err : r.1 ≠ .ok → w'.err.code = r.1
  keep : r.1 = .ok → K → w'.err = w.err

theorem NoObject.post {K : Prop} {cfg : Cfg} {U : Multiset Nat} {objs : List ClObj} {w w' : World} {r : ErrorCode × Option ClObj} (h : NoObject w r w') (hi : Inv cfg U objs w) :
    StepPost cfg U w K (r.1, objs ++ r.2.toList) w' := by
  refine ⟨?_, fun _ => h.err, fun he => absurd he h.ne_ok⟩
  rw [h.null]; simpa using hi.congr h.live

theorem step_post {K : Prop} {cfg : Cfg} {U : Multiset Nat} {objs : List ClObj} {w w' : World} {e : ErrorCode} (hi : Inv cfg U objs w) (hl : w'.live = w.live)
    (he : e ≠ .ok → w'.err.code = e) (hk : e = .ok → K → w'.err = w.err) : StepPost cfg U w K (e, objs) w' := ⟨hi.congr hl, he, hk⟩

theorem step_cluster {cfg : Cfg} (hcfg : cfg.Valid) {U : Multiset Nat} {objs : List ClObj} {w : World} (hi : Inv cfg U objs w) (i : Nat) (spi : Spi F) (o : Options F)
    (ha : (Op.cluster i spi o).Allowed cfg U objs w) : WpM ((Op.cluster i spi o).run cfg objs) w (StepPost cfg U w False) := by
  unfold Op.run
  dsimp only
  rw [wpM_bind]
  cases hob : objs[i]? with
  | none =>
    unfold scClustering isInitialized
    dsimp only
    rw [wpM_bind, wpM_pure]
    rw [wpM_bind]
    refine wpM_mkErr fun w1 f1 l1 e1 => ?_
    rw [wpM_pure, wpM_pure]
    exact step_post hi l1 (fun _ => by rw [e1]) fun _ h => h.elim
  | some ob =>
    obtain ⟨hu, ⟨A, dist, mayRefuse, ⟨hs⟩⟩, ⟨P, lab, c, harr, hlim⟩, hm⟩ := ha ob hob
    obtain ⟨hus, hle⟩ := hi.usable hob
    have hfine := hi.fine ob (List.mem_of_getElem? hob)
    have hc : CallOk cfg o ob P lab c w := ⟨hcfg, hle, fun lb hlb => (hfine.label lb hlb).1, harr, hlim, hu⟩
    have hrej : ∀ r w', RejectPost cfg spi o ob P w r w' → WpM (pure (r.1, putBack objs i r.2)) w' (StepPost cfg U w False) := by
      intro r w' h
      rw [wpM_pure, h.same]
      refine ⟨?_, fun _ => h.err, fun _ h => h.elim⟩
      dsimp only [putBack]
      obtain ⟨L, hL⟩ := Multiset.le_iff_exists_add.1 hle
      have hself : w.live = ob.own + (U + owned (objs.eraseIdx i)) := by rw [hi.live, owned_eraseIdx hob]; abel
      exact hi.put hob hfine hself (by rw [h.live, hself])
    have hunt : ∀ cl' w' M, Untouched ob.cl cl' → w.live = ptrOwn ob.cl.label + M → w'.live = ptrOwn ob.cl.label + M → Inv cfg U (objs.set i ⟨ob.id, cl'⟩) w' := by
      intro cl' w' M h h1 h2
      have hself : w.live = ob.own + (U + owned (objs.eraseIdx i)) := by rw [hi.live, owned_eraseIdx hob]; abel
      exact hi.put hob (fine_untouched hfine h) hself (by rw [h2, ← h1, hself, own_untouched h])
    have hlab : ∀ k id l cl' w' M, Labelled ob.cl k id l cl' → k ≤ cfg.clabelMax → (0 < k → Filled l ob.cl.n) → w.live = ptrOwn ob.cl.label + M → w'.live = {id} + M →
        Inv cfg U (objs.set i ⟨ob.id, cl'⟩) w' := by
      intro k id l cl' w' M h hk hfl h1 h2
      obtain ⟨L, g1, g2⟩ := own_labelled (cfg := cfg) (U := U) h h1 h2 hle
      exact hi.put hob (fine_labelled hfine h hk hfl) g1 g2
    cases hsm : o.seedMethod with
    | unknown =>
      refine scClustering_checks hus.live harr hrej fun hacc => ?_
      exact absurd hsm hacc.options.seed
    | method m =>
      rw [hsm] at hm
      dsimp only at hm
      refine (scClustering_spec hs hc hsm).mono ?_
      rintro ⟨e, p⟩ w' (h | ⟨hacc, hf, M, cl', hlive, hp, h⟩)
      · exact hrej _ _ h
      · dsimp only at hp h
        subst hp
        rw [wpM_pure]
        dsimp only [putBack]
        cases h with
        | done _ _ rows order L2 L3 L id l data lab' live =>
          exact ⟨hlab _ _ _ _ _ _ lab' data.cap (fun _ => data.labels.filled) hlive live, fun h => absurd rfl h, fun _ h => h.elim⟩
        | early _ _ _ leak cause unt err live leaked =>
          refine ⟨hunt _ _ M unt hlive ?_, fun _ => err, fun _ h => h.elim⟩
          rcases leaked with h | ⟨h, h', -⟩ | ⟨h, rfl, -⟩
          · rw [live, h, zero_add]
          · exact absurd (hm h).1 h'
          · exfalso
            rcases cause with (⟨-, h'⟩ | ⟨h', -⟩ | ⟨h', -⟩) | ⟨h', -⟩ | ⟨h', -⟩
            · exact (hm h).2 h'
            all_goals cases h'
        | late _ _ _ L id l cause err search labels lt pos cap lab' live =>
          exact ⟨hlab _ _ _ _ _ _ lab' cap (fun _ => labels.filled) hlive live, fun _ => err, fun _ h => h.elim⟩
    | batches =>
      rw [hsm] at hm
      dsimp only at hm
      refine (scBatches_spec hs hc hsm hm).mono ?_
      rintro ⟨e, p⟩ w' (h | ⟨hacc, hf, ⟨-, h, h3, h4⟩ | ⟨hum, M, cl', hlive, hp, h⟩⟩)
      · exact hrej _ _ h
      · cases h
        rw [wpM_pure]
        exact ⟨hunt _ _ _ (Untouched.refl _) (show w.live = ptrOwn ob.cl.label + _ from (Multiset.le_iff_exists_add.1 (le_trans (Multiset.le_add_left _ _) hle)).choose_spec)
          (by rw [h4]; exact (Multiset.le_iff_exists_add.1 (le_trans (Multiset.le_add_left _ _) hle)).choose_spec), fun _ => h3, fun _ h => h.elim⟩
      · dsimp only at hp h
        subst hp
        rw [wpM_pure]
        dsimp only [putBack]
        cases h with
        | done _ _ evs id l run count pos cap labels lab' live => exact ⟨hlab _ _ _ _ _ _ lab' cap (fun _ => labels.filled) hlive live, fun h => absurd rfl h, fun _ h => h.elim⟩
        | failed _ _ _ cause err after =>
          rcases after with ⟨unt, live⟩ | ⟨id, l, lab', live⟩
          · exact ⟨hunt _ _ M unt hlive live, fun _ => err, fun _ h => h.elim⟩
          · exact ⟨hlab _ _ _ _ _ _ lab' (Nat.zero_le _) (fun h => absurd h (lt_irrefl 0)) hlive live, fun _ => err, fun _ h => h.elim⟩
        | noSeeds _ _ evs id l run none err labels lab' live =>
          exact ⟨hlab _ _ _ _ _ _ lab' (Nat.zero_le _) (fun h => absurd h (lt_irrefl 0)) hlive live, fun _ => err, fun _ h => h.elim⟩

theorem step_hierarchical {cfg : Cfg} (hcfg : cfg.Valid) {U : Multiset Nat} {objs : List ClObj} {w : World} (hi : Inv cfg U objs w) (i : Nat) (env : HiEnv F) (spi : Spi F) (S : Nat) (batch : Bool)
    (ha : (Op.hierarchical i env spi S batch).Allowed cfg U objs w) : WpM ((Op.hierarchical i env spi S batch).run cfg objs) w (StepPost cfg U w True) := by
  unfold Op.run
  dsimp only
  rw [wpM_bind]
  cases hob : objs[i]? with
  | none =>
    unfold Scc.hierarchical isInitialized
    dsimp only
    rw [wpM_bind, wpM_pure]
    rw [wpM_bind]
    refine wpM_mkErr fun w1 f1 l1 e1 => ?_
    rw [wpM_pure, wpM_pure]
    exact step_post hi l1 (fun _ => by rw [e1]) nofun
  | some ob =>
    obtain ⟨henv, ⟨dist, mayRefuse, hd, ⟨hs⟩, hspread⟩, ⟨h32, hsz, h64⟩, hlabels⟩ := ha ob hob
    obtain ⟨hus, hle⟩ := hi.usable hob
    have hfine := hi.fine ob (List.mem_of_getElem? hob)
    have hself : w.live = ob.own + (U + owned (objs.eraseIdx i)) := by rw [hi.live, owned_eraseIdx hob]; abel
    have hlab : ∀ k id l cl' w' M, Labelled ob.cl k id l cl' → k ≤ cfg.clabelMax → (0 < k → Filled l ob.cl.n) → w.live = ptrOwn ob.cl.label + M → w'.live = {id} + M →
        Inv cfg U (objs.set i ⟨ob.id, cl'⟩) w' := by
      intro k id l cl' w' M h hk hfl h1 h2
      obtain ⟨L, g1, g2⟩ := own_labelled (cfg := cfg) (U := U) h h1 h2 hle
      exact hi.put hob (fine_labelled hfine h hk hfl) g1 g2
    refine (hierarchical_spec henv hd hs batch ⟨hcfg, hle, fun lb hlb => (hfine.label lb hlb).1, h32, hsz, h64, hlabels⟩).mono ?_
    rintro ⟨e, p⟩ w' ⟨hf, ⟨hrej, herr, hl, hp⟩ | ⟨hacc, M, cl', hlive, hM, hp, h⟩⟩
    · dsimp only at hrej herr hp
      subst hp
      rw [wpM_pure]
      refine ⟨hi.put hob hfine hself (by rw [hl, hself]), fun _ => herr, fun h => ?_⟩
      dsimp only at h
      subst h
      rcases hrej with ⟨h, -⟩ | ⟨h, -⟩ <;> cases h
    · dsimp only at hp h
      subst hp
      rw [wpM_pure]
      dsimp only [putBack]
      have hold : 0 < ob.cl.numClusters → ∀ lb l, ob.cl.label = some lb → KeptLabels lb.buf l → Filled l ob.cl.n := by
        intro hk lb l hlb hkept v hv
        obtain ⟨x, hx⟩ := hfine.filled hk lb hlb v hv
        exact hkept.get v x hx
      cases h with
      | done _ _ labels0 id l cs old result lab' live err =>
        refine ⟨hlab _ _ _ _ _ _ lab' result.cap (fun _ v hv => ?_) hlive live, fun h => absurd rfl h, fun _ _ => err⟩
        by_cases hmem : ∃ e ∈ cs, v ∈ e.pts
        · exact result.written hmem
        · rw [result.same v (by simpa using hmem)]
          by_cases hk : ob.cl.numClusters = 0
          · exfalso
            have hp := result.parts (by
              intro O hO
              unfold startClusters at hO
              rw [if_pos hk, List.mem_singleton] at hO
              subst hO
              exact hspread hk)
            unfold startClusters at hp
            rw [if_pos hk] at hp
            have : v ∈ stackPts cs := hp.mem_iff.2 (by simpa using hv)
            unfold stackPts at this
            rw [List.mem_flatMap] at this
            exact hmem this
          · obtain ⟨lb, hlb⟩ := Option.ne_none_iff_exists'.1 ((isInitialized_iff.1 hus.init).2.2.2.2 (by omega))
            rw [old lb hlb]
            exact hfine.filled (by omega) lb hlb v hv
      | early _ _ _ cause err unt live =>
        exact ⟨hi.put hob (fine_untouched hfine unt) hself (by rw [live, ← hlive, hself, own_untouched unt]), fun _ => err, fun h => absurd h cause.ne_ok⟩
      | late _ _ _ id l cause err lab' kept live =>
        refine ⟨hlab _ _ _ _ _ _ lab' (isInitialized_iff.1 hus.init).2.2.2.1 (fun hk => ?_) hlive live, fun _ => err, fun h => absurd h cause.ne_ok⟩
        obtain ⟨lb, hlb⟩ := Option.ne_none_iff_exists'.1 ((isInitialized_iff.1 hus.init).2.2.2.2 hk)
        exact hold hk lb l hlb (kept lb hlb)

theorem step_stats {cfg : Cfg} (hcfg : cfg.Valid) {U : Multiset Nat} {objs : List ClObj} {w : World} (hi : Inv cfg U objs w) (i : Nat) (spi : Spi F) (hasOut : Bool)
    (ha : (Op.stats i spi hasOut).Allowed cfg U objs w) : WpM ((Op.stats i spi hasOut).run cfg objs) w (StepPost cfg U w True) := by
  unfold Op.run
  dsimp only
  rw [wpM_bind]
  cases hasOut with
  | false =>
    unfold getStats
    rw [if_pos (by rfl), wpM_bind]
    refine wpM_mkErr fun w1 f1 l1 e1 => ?_
    rw [wpM_pure, wpM_pure]
    exact step_post hi l1 (fun _ => by rw [e1]) nofun
  | true =>
    cases hob : objs[i]? with
    | none =>
      unfold getStats isInitialized
      rw [if_neg (by simp)]
      dsimp only
      rw [wpM_bind, wpM_pure, wpM_bind]
      refine wpM_mkErr fun w1 f1 l1 e1 => ?_
      rw [wpM_pure, wpM_pure]
      exact step_post hi l1 (fun _ => by rw [e1]) nofun
    | some ob =>
      obtain ⟨⟨dist, mayRefuse, hm⟩, hv, hroom⟩ := ha ob hob
      obtain ⟨hus, hle⟩ := hi.usable hob
      refine (getStats_spec hm ⟨hcfg, hle, hv, hroom⟩).mono ?_
      rintro ⟨e, q⟩ w' ⟨l1, ⟨-, -, -, -, lb, -, ⟨h1, h2, -⟩ | ⟨-, h1, h2⟩⟩ | ⟨-, h1, h2⟩⟩
      · dsimp only at h1
        rw [wpM_pure, h1]
        exact step_post hi l1 (fun h => absurd rfl h) fun _ _ => h2
      · rw [wpM_pure]
        refine step_post hi l1 (fun _ => h1) fun he => ?_
        dsimp only at he h2
        subst he
        rcases h2 with ⟨h, -⟩ | ⟨h, -⟩ <;> cases h
      · cases h1
        rw [wpM_pure]
        exact step_post hi l1 (fun _ => h2) nofun

theorem step_ok {cfg : Cfg} (hcfg : cfg.Valid) {U : Multiset Nat} {objs : List ClObj} {w : World} (hi : Inv cfg U objs w) (op : Op F) (ha : op.Allowed cfg U objs w) :
    WpM (op.run cfg objs) w (StepPost cfg U w (op.isCluster = false)) := by
  cases op with
  | initEmpty n labels hasOut =>
    dsimp only [Op.run]
    rw [wpM_bind]
    refine initEmpty_spec.mono ?_
    rintro ⟨e, p⟩ w' ⟨hf, ⟨⟨-, hg⟩, ⟨h1, h2, j, hj, h3, h4⟩ | ⟨h, -⟩⟩ | ⟨-, h, -⟩⟩
    · dsimp only at h1 h3
      subst h1 h3
      rw [wpM_pure]
      refine ⟨hi.push ?_ ?_, fun h => absurd rfl h, fun _ _ => h2⟩
      · refine ⟨isInitialized_iff.2 ⟨rfl, hg.1, hg.2.1, Nat.zero_le _, fun h => absurd h (lt_irrefl 0)⟩, fun lb hlb => ?_, fun h => absurd h (lt_irrefl 0)⟩
        obtain ⟨g1, g2⟩ := ha lb hlb
        exact ⟨g2, fun _ => g1⟩
      · rw [h4]; unfold ClObj.own; cases labels <;> simp
    · rw [wpM_pure]; exact h.post hi
    · rw [wpM_pure]; exact h.post hi
  | initExisting n k labels deep hasOut =>
    dsimp only [Op.run]
    rw [wpM_bind]
    refine (initExisting_spec fun b hb => ⟨by rw [hi.live]; exact Multiset.mem_add.2 (Or.inl (ha b hb).1), (ha b hb).2.1⟩).mono ?_
    rintro ⟨e, p⟩ w' ⟨hf, ⟨⟨-, hg⟩, ⟨h1, h2, src, hsrc, ⟨-, j, hj, h3, h4⟩ | ⟨-, j, j', b, hj, hj', h3, h4, h5, h6⟩⟩ | ⟨h, -⟩⟩ | ⟨-, h, -⟩⟩
    · dsimp only at h1 h3
      subst h1 h3
      rw [wpM_pure]
      obtain ⟨g1, g2, g3⟩ := ha src hsrc
      refine ⟨hi.push ⟨isInitialized_iff.2 ⟨rfl, hg.1.1, hg.1.2.1, hg.2.2.1, fun _ => nofun⟩, fun lb hlb => ?_, fun _ lb hlb => ?_⟩ ?_, fun h => absurd rfl h, fun _ _ => h2⟩
      · cases hlb; exact ⟨g2, fun _ => g1⟩
      · cases hlb; exact g3
      · rw [h4]; unfold ClObj.own; simp
    · dsimp only at h1 h3
      subst h1 h3
      rw [wpM_pure]
      obtain ⟨g1, g2, g3⟩ := ha src hsrc
      refine ⟨hi.push ⟨isInitialized_iff.2 ⟨rfl, hg.1.1, hg.1.2.1, hg.2.2.1, fun _ => nofun⟩, fun lb hlb => ?_, fun _ lb hlb => ?_⟩ ?_, fun h => absurd rfl h, fun _ _ => h2⟩
      · cases hlb; exact ⟨le_of_eq h5.symm, nofun⟩
      · cases hlb; intro v hv; rw [h6 v hv]; exact g3 v hv
      · rw [h4]; unfold ClObj.own; simp
    · rw [wpM_pure]; exact h.post hi
    · rw [wpM_pure]; exact h.post hi
  | copy i hasOut =>
    dsimp only [Op.run]
    rw [wpM_bind]
    cases hasOut with
    | false =>
      unfold copyClustering
      rw [if_pos (by rfl)]
      refine noObject_err nofun fun w1 f1 h => ?_
      rw [wpM_pure]; exact h.post hi
    | true =>
      cases hob : objs[i]? with
      | none =>
        unfold copyClustering isInitialized
        rw [if_neg (by simp)]
        dsimp only
        rw [wpM_bind, wpM_pure]
        refine noObject_err nofun fun w1 f1 h => ?_
        rw [wpM_pure]; exact h.post hi
      | some ob =>
        have hus := (hi.usable hob).1
        have hfine := hi.fine ob (List.mem_of_getElem? hob)
        obtain ⟨i1, i2, i3, i4, i5⟩ := isInitialized_iff.1 hfine.init
        refine (copyClustering_spec hus).mono ?_
        rintro ⟨e, p⟩ w' ⟨hf, ⟨h1, h2, j, hj, ⟨h0, j', b, lb, hj', h3, h4, h5, h6, h7⟩ | ⟨h0, h3, h4⟩⟩ | ⟨h, -⟩⟩
        · dsimp only at h1 h3
          subst h1 h3
          rw [wpM_pure]
          refine ⟨hi.push ⟨isInitialized_iff.2 ⟨rfl, i2, i3, i4, fun _ => nofun⟩, fun lb hlb => ?_, fun h lb hlb => ?_⟩ ?_, fun h => absurd rfl h, fun _ _ => h2⟩
          · cases hlb; exact ⟨le_of_eq h5.symm, nofun⟩
          · cases hlb; intro v hv; rw [h7 v hv]; exact hfine.filled h0 _ h6 v hv
          · rw [h4]; unfold ClObj.own; simp
        · dsimp only at h1 h3
          subst h1 h3
          rw [wpM_pure]
          refine ⟨hi.push ⟨isInitialized_iff.2 ⟨rfl, i2, i3, Nat.zero_le _, fun h => absurd h (lt_irrefl 0)⟩, nofun, nofun⟩ ?_, fun h => absurd rfl h, fun _ _ => h2⟩
          rw [h4]; unfold ClObj.own; simp
        · rw [wpM_pure]; exact h.post hi
  | free i =>
    dsimp only [Op.run]
    rw [wpM_bind]
    cases hob : objs[i]? with
    | none =>
      unfold freeClustering
      dsimp only
      rw [wpM_pure, wpM_pure]
      rw [List.eraseIdx_of_length_le (by simpa using hob)]
      exact step_post hi rfl (fun h => absurd rfl h) fun _ _ => rfl
    | some ob =>
      refine (freeClustering_spec (L := U + owned (objs.eraseIdx i)) (by rw [hi.live, owned_eraseIdx hob]; abel)).mono ?_
      rintro _ w' ⟨f1, l1, e1⟩
      rw [wpM_pure]
      exact ⟨⟨l1, fun x hx => hi.fine x (List.mem_of_mem_eraseIdx hx)⟩, fun h => absurd rfl h, fun _ _ => e1⟩
  | info i =>
    dsimp only [Op.run]
    rw [wpM_bind]
    unfold getInfo
    rw [wpM_bind]
    cases hob : objs[i]? with
    | none =>
      unfold isInitialized
      dsimp only
      rw [wpM_pure, wpM_bind]
      refine wpM_mkErr fun w1 f1 l1 e1 => ?_
      rw [wpM_pure, wpM_pure]
      exact step_post hi l1 (fun _ => by rw [e1]) nofun
    | some ob =>
      have hus := (hi.usable hob).1
      refine isInitialized_wp hus.live ?_
      rw [hus.init]
      dsimp only
      rw [wpM_pure, wpM_pure]
      exact step_post hi rfl (fun h => absurd rfl h) fun _ _ => rfl
  | getLabels i len out =>
    dsimp only [Op.run]
    rw [wpM_bind]
    unfold Scc.getLabels
    rw [wpM_bind]
    cases hob : objs[i]? with
    | none =>
      unfold isInitialized
      dsimp only
      rw [wpM_pure, wpM_bind]
      refine wpM_mkErr fun w1 f1 l1 e1 => ?_
      rw [wpM_pure, wpM_pure]
      exact step_post hi l1 (fun _ => by rw [e1]) nofun
    | some ob =>
      have hus := (hi.usable hob).1
      have hfine := hi.fine ob (List.mem_of_getElem? hob)
      refine isInitialized_wp hus.live ?_
      rw [hus.init]
      dsimp only
      by_cases h0 : ob.cl.numClusters = 0
      · rw [if_pos h0, wpM_bind]
        refine wpM_mkErr fun w1 f1 l1 e1 => ?_
        rw [wpM_pure, wpM_pure]
        exact step_post hi l1 (fun _ => by rw [e1]) nofun
      · rw [if_neg h0]
        by_cases h1 : len = 0
        · rw [if_pos h1, wpM_bind]
          refine wpM_mkErr fun w1 f1 l1 e1 => ?_
          rw [wpM_pure, wpM_pure]
          exact step_post hi l1 (fun _ => by rw [e1]) nofun
        · rw [if_neg h1]
          cases hout : out with
          | none =>
            dsimp only
            rw [wpM_bind]
            refine wpM_mkErr fun w1 f1 l1 e1 => ?_
            rw [wpM_pure, wpM_pure]
            exact step_post hi l1 (fun _ => by rw [e1]) nofun
          | some b =>
            dsimp only
            cases hlb : ob.cl.label with
            | none => exact absurd hlb ((isInitialized_iff.1 hus.init).2.2.2.2 (by omega))
            | some lb =>
              rw [wpM_bind, wpM_useK]
              refine ⟨by simp [ptrIds, (hus.label lb hlb).1], ?_⟩
              refine (exportLabels_spec (fun v hv => hfine.filled (by omega) lb hlb v (by omega)) (ha b hout)).mono fun b' _ => ?_
              rw [wpM_pure, wpM_pure]
              exact step_post hi rfl (fun h => absurd rfl h) fun _ _ => rfl
  | check i o hasOut =>
    dsimp only [Op.run]
    rw [wpM_bind]
    cases hasOut with
    | false =>
      unfold checkClustering
      rw [if_pos (by rfl), wpM_bind]
      refine wpM_mkErr fun w1 f1 l1 e1 => ?_
      rw [wpM_pure, wpM_pure]
      exact step_post hi l1 (fun _ => by rw [e1]) nofun
    | true =>
      cases hob : objs[i]? with
      | none =>
        unfold checkClustering isInitialized
        rw [if_neg (by simp)]
        dsimp only
        rw [wpM_bind, wpM_pure, wpM_bind]
        refine wpM_mkErr fun w1 f1 l1 e1 => ?_
        rw [wpM_pure, wpM_pure]
        exact step_post hi l1 (fun _ => by rw [e1]) nofun
      | some ob =>
        obtain ⟨hus, hle⟩ := hi.usable hob
        have hfine := hi.fine ob (List.mem_of_getElem? hob)
        obtain ⟨hroom, P, lab, c, harr⟩ := ha ob hob
        refine (checkClustering_spec ⟨hcfg, hle, fun h0 lb hlb => hfine.filled h0 lb hlb, harr, hroom⟩).mono ?_
        rintro ⟨e, q⟩ w' ⟨l1, ⟨h1, h2, -⟩ | ⟨hne, -, h1⟩⟩
        · dsimp only at h1
          rw [wpM_pure, h1]
          exact step_post hi l1 (fun h => absurd rfl h) fun _ _ => h2
        · rw [wpM_pure]
          exact step_post hi l1 (fun _ => h1) fun he => absurd he hne.ne_ok
  | cluster i spi o => exact (step_cluster hcfg hi i spi o ha).mono fun r w' h => ⟨h.inv, h.err, fun _ h => by cases h⟩
  | hierarchical i env spi S batch => exact (step_hierarchical hcfg hi i env spi S batch ha).mono fun r w' h => ⟨h.inv, h.err, fun a _ => h.keep a trivial⟩
  | stats i spi hasOut => exact (step_stats hcfg hi i spi hasOut ha).mono fun r w' h => ⟨h.inv, h.err, fun a _ => h.keep a trivial⟩
  | write i b =>
    dsimp only [Op.run]
    rw [wpM_pure]
    cases hob : objs[i]? with
    | none =>
      dsimp only [Option.map, putBack]
      exact step_post hi rfl (fun h => absurd rfl h) fun _ _ => rfl
    | some ob =>
      dsimp only [Option.map, putBack]
      have hfine := hi.fine ob (List.mem_of_getElem? hob)
      obtain ⟨hx, hb⟩ := ha ob hob
      refine ⟨hi.put hob (M := U + owned (objs.eraseIdx i)) ⟨?_, ?_, ?_⟩ (by rw [hi.live, owned_eraseIdx hob]; abel) ?_, fun h => absurd rfl h, fun _ _ => rfl⟩
      · obtain ⟨i1, i2, i3, i4, i5⟩ := isInitialized_iff.1 hfine.init
        exact isInitialized_iff.2 ⟨i1, i2, i3, i4, fun h => by simpa [ClObj.relabel] using i5 h⟩
      · intro lb hlb
        dsimp only [ClObj.relabel] at hlb ⊢
        rw [Option.map_eq_some_iff] at hlb
        obtain ⟨lb0, h0, rfl⟩ := hlb
        exact ⟨by dsimp only; rw [(hb lb0 h0).1]; exact (hfine.label lb0 h0).1, (hfine.label lb0 h0).2⟩
      · intro hk lb hlb
        dsimp only [ClObj.relabel] at hlb ⊢
        rw [Option.map_eq_some_iff] at hlb
        obtain ⟨lb0, h0, rfl⟩ := hlb
        exact (hb lb0 h0).2
      · rw [hi.live, owned_eraseIdx hob]
        unfold ClObj.own
        dsimp only [ClObj.relabel]
        simp only [hx, ↓reduceIte]
        abel

end Scc
