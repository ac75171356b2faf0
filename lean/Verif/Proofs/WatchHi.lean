/-
Failure reports of the back end reach the caller: hierarchical clustering and statistics.
-/
import Verif.Proofs.Watch
import Verif.Model.Hierarchical
import Verif.Model.Stats

namespace Scc

variable {F : Type} [FloatOps F] {spi : Spi F} {v : Watch}

/-! ### Hierarchical clustering -/

theorem tracks_centerLoop (ids : HiIds) (obj : spi.MD) (marker fuel : Nat) (st : CenterSt F) (maxI : Buf Nat) (maxD : Buf F) :
    Tracks (centerLoop (spi.watched v) ids obj marker fuel st maxI maxD) (centerLoop spi ids obj marker fuel st maxI maxD) IsErr := by
  induction fuel generalizing st maxI maxD with
  | zero =>
    rw [centerLoop.eq_def (spi.watched v) ids obj marker 0, centerLoop.eq_def spi ids obj marker 0]
    dsimp only
    exact tracks_refl _ _
  | succ fuel ih =>
    rw [centerLoop.eq_def (spi.watched v) ids obj marker (fuel + 1), centerLoop.eq_def spi ids obj marker (fuel + 1)]
    dsimp only
    by_cases h : st.count = 0
    · rw [if_pos h, if_pos h]; exact tracks_refl _ _
    · rw [if_neg h, if_neg h]
      refine tracks_next fun _ => tracks_bind (A := fun r => r = none ∧ v.search = true) (tracks_none _ _) (fun r => ?_) ?_
      · cases r with
        | none =>
          dsimp only
          exact tracks_bind (A := fun r => r = false ∧ v.close = true) (tracks_false _ _) (fun _ => tracks_refl _ _) fun _ _ => ends_fail (by decide)
        | some r =>
          dsimp only
          exact tracks_next fun st => ih st _ _
      · rintro _ ⟨rfl, -⟩
        exact ends_next fun _ => ends_fail (by decide)

theorem ends_centerLoop (ids : HiIds) (obj : spi.MD) (marker fuel : Nat) (st : CenterSt F) (maxI : Buf Nat) (maxD : Buf F) :
    Ends (centerLoop spi ids obj marker fuel st maxI maxD) fun r => r ≠ .error .ok := by
  induction fuel generalizing st maxI maxD with
  | zero =>
    rw [centerLoop.eq_def spi ids obj marker 0]
    intro w r h
    cases h
  | succ fuel ih =>
    rw [centerLoop.eq_def spi ids obj marker (fuel + 1)]
    dsimp only
    by_cases h : st.count = 0
    · rw [if_pos h]; exact ends_pure nofun
    · rw [if_neg h]
      refine ends_next fun _ => ends_next fun r => ?_
      cases r with
      | none => exact ends_next fun _ => ends_fail' (by decide)
      | some r => exact ends_next fun st => ih st _ _

theorem tracks_findCenters (cfg : Cfg) (ids : HiIds) (c : HiItem) (b : HiBufs F) : Tracks (findCenters cfg (spi.watched v) ids c b) (findCenters cfg spi ids c b) IsErr := by
  unfold findCenters
  refine tracks_next fun s => ?_
  dsimp only
  refine tracks_bind (A := fun r => r = none ∧ v.start = true) (tracks_none _ _) (fun r => ?_) ?_
  · cases r with
    | none => dsimp only; exact tracks_refl _ _
    | some obj =>
      dsimp only
      refine tracks_bind (tracks_centerLoop (spi := spi) (v := v) ids obj _ _ _ _ _) (fun r => ?_) ?_
      · cases r with
        | error e => dsimp only; exact tracks_refl _ _
        | ok r =>
          dsimp only
          refine tracks_bind (A := fun r => r = false ∧ v.close = true) (tracks_false _ _) (fun b => ?_) ?_
          · cases b <;> exact tracks_refl _ _
          · rintro _ ⟨rfl, -⟩
            exact ends_fail (by decide)
      · rintro _ ⟨e, rfl, he⟩
        exact ends_pure ⟨e, rfl, he⟩
  · rintro _ ⟨rfl, -⟩
    exact ends_fail (by decide)

theorem tracks_breakCluster (cfg : Cfg) (hi : HiEnv F) (ids : HiIds) (S : Nat) (batch : Bool) (c : HiItem) (b : HiBufs F) :
    Tracks (breakCluster cfg hi (spi.watched v) ids S batch c b) (breakCluster cfg hi spi ids S batch c b) IsErr := by
  unfold breakCluster
  refine tracks_bind (tracks_findCenters cfg ids c b) (fun r => ?_) ?_
  · cases r with
    | error e => dsimp only; exact tracks_refl _ _
    | ok r =>
      dsimp only
      refine tracks_next fun off => tracks_next fun _ => tracks_bind (tracks_rows _ _ _ _ _) (fun r => ?_) ?_
      · cases r <;> dsimp only <;> exact tracks_refl _ _
      · rintro _ ⟨rfl, -⟩
        exact ends_fail (by decide)
  · rintro _ ⟨e, rfl, he⟩
    exact ends_pure ⟨e, rfl, he⟩

theorem tracks_hiStep (cfg : Cfg) (hi : HiEnv F) (ids : HiIds) (lids : List Nat) (S : Nat) (batch : Bool) (r : HiRun F) :
    Tracks (hiStep cfg hi (spi.watched v) ids lids S batch r) (hiStep cfg hi spi ids lids S batch r) fun r => ∃ e, r.1 = some e ∧ e ≠ .ok := by
  unfold hiStep
  refine tracks_next fun st => ?_
  cases st with
  | error e => dsimp only; exact tracks_refl _ _
  | ok stack =>
    dsimp only
    refine tracks_next fun c => ?_
    by_cases h : c.size < u32 (2 * S)
    · rw [if_pos h, if_pos h]; exact tracks_refl _ _
    · rw [if_neg h, if_neg h]
      refine tracks_bind (tracks_breakCluster cfg hi ids S batch c _) (fun r => ?_) ?_
      · cases r <;> dsimp only <;> exact tracks_refl _ _
      · rintro _ ⟨e, rfl, he⟩
        exact ends_pure ⟨e, rfl, he⟩

theorem tracks_hiLoop (cfg : Cfg) (hi : HiEnv F) (ids : HiIds) (lids : List Nat) (S : Nat) (batch : Bool) (fuel : Nat) (r : HiRun F) :
    Tracks (hiLoop cfg hi (spi.watched v) ids lids S batch fuel r) (hiLoop cfg hi spi ids lids S batch fuel r) NotOk := by
  induction fuel generalizing r with
  | zero =>
    rw [hiLoop.eq_def cfg hi (spi.watched v) ids lids S batch 0, hiLoop.eq_def cfg hi spi ids lids S batch 0]
    dsimp only
    exact tracks_refl _ _
  | succ fuel ih =>
    rw [hiLoop.eq_def cfg hi (spi.watched v) ids lids S batch (fuel + 1), hiLoop.eq_def cfg hi spi ids lids S batch (fuel + 1)]
    dsimp only
    by_cases h : r.stack.items = 0
    · rw [if_pos h, if_pos h]; exact tracks_refl _ _
    · rw [if_neg h, if_neg h]
      refine tracks_bind (tracks_hiStep cfg hi ids lids S batch r) (fun r => ?_) ?_
      · obtain ⟨_ | e, r⟩ := r
        · dsimp only; exact ih r
        · dsimp only; exact tracks_refl _ _
      · rintro ⟨_, r⟩ ⟨e, rfl, he⟩
        exact ends_pure he

theorem tracks_hiWork (cfg : Cfg) (hi : HiEnv F) (S : Nat) (batch : Bool) (cl : Clustering) (stack : HiStack) (store : Blk Nat)
    (i1 i2 : Option (Blk Nat)) (d : Option (Blk F)) (m : Option (Blk Nat)) (e1 e2 : Option (Blk (Nat × F))) :
    Tracks (hiWork cfg hi (spi.watched v) S batch cl stack store i1 i2 d m e1 e2) (hiWork cfg hi spi S batch cl stack store i1 i2 d m e1 e2) NotOk := by
  unfold hiWork
  rcases i1 with _ | i1
  · exact tracks_refl _ _
  rcases i2 with _ | i2
  · exact tracks_refl _ _
  rcases d with _ | d
  · exact tracks_refl _ _
  rcases m with _ | m
  · exact tracks_refl _ _
  rcases e1 with _ | e1
  · exact tracks_refl _ _
  rcases e2 with _ | e2
  · exact tracks_refl _ _
  dsimp only
  refine tracks_bind (tracks_hiLoop cfg hi _ _ S batch _ _) (fun _ => tracks_refl _ _) fun r hr => ends_pure hr

theorem tracks_hierarchical (cfg : Cfg) (hi : HiEnv F) (S : Nat) (batch : Bool) (p : Option ClObj) :
    Tracks (hierarchical cfg hi (spi.watched v) S batch p) (hierarchical cfg hi spi S batch p) NotOk := by
  unfold hierarchical
  refine tracks_next fun ok => ?_
  cases ok with
  | false => dsimp only; exact tracks_refl _ _
  | true =>
    cases p with
    | none => dsimp only; exact tracks_refl _ _
    | some ob =>
      dsimp only
      rw [show hiArgsError (spi.watched v) ob.cl S = hiArgsError spi ob.cl S from rfl]
      cases hiArgsError spi ob.cl S with
      | some r => dsimp only; exact tracks_refl _ _
      | none =>
        dsimp only
        refine tracks_bind (A := NotOk) ?_ (fun _ => tracks_refl _ _) fun r hr => ends_next fun _ => ends_pure hr
        unfold hiCluster
        refine tracks_next fun l => ?_
        dsimp only
        by_cases hl : (!l.1) = true
        · rw [if_pos hl, if_pos hl]; exact tracks_refl _ _
        · rw [if_neg hl, if_neg hl]
          refine tracks_next fun st => ?_
          cases st with
          | error e => dsimp only; exact tracks_refl _ _
          | ok st =>
            dsimp only
            unfold hiMain
            refine tracks_next fun _ => tracks_next fun _ => tracks_next fun _ => tracks_next fun _ => tracks_next fun _ => tracks_next fun _ => ?_
            refine tracks_bind (tracks_hiWork cfg hi S batch _ _ _ _ _ _ _ _ _) (fun _ => tracks_refl _ _) fun r hr => ?_
            exact ends_next fun _ => ends_next fun _ => ends_next fun _ => ends_next fun _ => ends_next fun _ => ends_next fun _ => ends_next fun _ => ends_next fun _ => ends_pure hr

/-! ### Statistics -/

theorem tracks_statsStep (cfg : Cfg) (ids : StatIds) (sizes ends store : Buf Nat) (st : Stats F × Buf F) (c : Nat) :
    Tracks (statsStep cfg (spi.watched v) ids sizes ends store st c) (statsStep cfg spi ids sizes ends store st c) fun c => ∃ r, c = .stop r ∧ True := by
  unfold statsStep
  refine tracks_next fun se => ?_
  dsimp only
  by_cases h : se.1 < 2
  · rw [if_pos h, if_pos h]; exact tracks_refl _ _
  · rw [if_neg h, if_neg h]
    refine tracks_next fun _ => tracks_bind (A := fun r => r = none ∧ v.start = true) (tracks_none _ _) (fun r => ?_) ?_
    · cases r <;> dsimp only <;> exact tracks_refl _ _
    · rintro _ ⟨rfl, -⟩
      exact ends_pure ⟨(), rfl, trivial⟩

theorem tracks_statsMain (cfg : Cfg) (cl : Clustering) : Tracks (statsMain cfg (spi.watched v) cl) (statsMain cfg spi cl) NotOk := by
  unfold statsMain
  refine tracks_next fun b => ?_
  cases b with
  | none => dsimp only; exact tracks_refl _ _
  | some b =>
    dsimp only
    refine tracks_next fun sizes => tracks_next fun st => ?_
    by_cases h : st.populated = 0
    · rw [if_pos h, if_pos h]; exact tracks_refl _ _
    · rw [if_neg h, if_neg h]
      unfold statsArrays
      refine tracks_next fun s => tracks_next fun e => tracks_next fun d => ?_
      rcases s with _ | s
      · exact tracks_refl _ _
      rcases e with _ | e
      · exact tracks_refl _ _
      rcases d with _ | d
      · exact tracks_refl _ _
      dsimp only
      unfold statsRun
      refine tracks_next fun _ => tracks_next fun es => ?_
      dsimp only
      refine tracks_bind (tracks_foldBM (tracks_statsStep cfg _ _ _ _) _ _) (fun r => ?_) ?_
      · cases r <;> dsimp only <;> exact tracks_refl _ _
      · rintro _ ⟨r, rfl, -⟩
        exact ends_next fun _ => ends_next fun _ => ends_next fun _ => ends_next fun _ => ends_bind ends_mkErr fun e he => ends_pure (by show e ≠ .ok; rw [he]; decide)

theorem tracks_getStats (cfg : Cfg) (p : Option ClObj) (hasOut : Bool) : Tracks (getStats cfg (spi.watched v) p hasOut) (getStats cfg spi p hasOut) NotOk := by
  unfold getStats
  cases hasOut with
  | false => rw [if_pos (by rfl), if_pos (by rfl)]; exact tracks_refl _ _
  | true =>
    rw [if_neg (by decide), if_neg (by decide)]
    refine tracks_next fun ok => ?_
    cases p with
    | none => dsimp only; exact tracks_refl _ _
    | some ob =>
      cases ok with
      | false => dsimp only; exact tracks_refl _ _
      | true =>
        dsimp only
        rw [show statsError (spi.watched v) ob.cl = statsError spi ob.cl from rfl]
        cases statsError spi ob.cl with
        | some r => dsimp only; exact tracks_refl _ _
        | none =>
          dsimp only
          exact tracks_bind (tracks_statsMain cfg _) (fun _ => tracks_refl _ _) fun r hr => ends_pure hr

end Scc
