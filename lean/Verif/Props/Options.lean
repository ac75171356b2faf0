/-
C32: validation of options.
-/
import Verif.Proofs.RunOk

namespace Scc

variable {F : Type} [FloatOps F]

/-- C32, first part: a call with invalid options (for any seed method) is rejected. The error code says what is wrong, and the clustering and memory are as before.
The arguments are otherwise fine: the clustering object is live and initialized, and it is for as many points as the data set. -/
theorem C32_invalid_rejected {cfg : Cfg} {spi : Spi F} {o : Options F} {ob : ClObj} {P : List Nat} {lab c : Nat → Nat} {w : World} (hl : ob.id ∈ w.live) (ha : OptionArrays ob.cl.n o P lab c)
    (hi : ob.cl.isInitialized cfg = true) (hd : spi.valid = true) (hn : spi.numPoints = ob.cl.n) (ho : ¬ ValidOptions o ob.cl.n P) :
    ∃ e w', scClustering cfg spi o (some ob) w = some ((e, some ob), w') ∧ e ≠ .ok ∧ RejectCode o ob.cl.n P e ∧ w'.err.code = e ∧ w'.live = w.live := by
  have h : WpM (scClustering cfg spi o (some ob)) w fun r w' => RejectPost cfg spi o ob P w r w' :=
    scClustering_checks hl ha (fun r w' h => h) fun h => absurd h.options ho
  obtain ⟨⟨e, p⟩, w', h1, h2⟩ := h
  have hp : p = some ob := h2.same
  subst hp
  refine ⟨e, w', h1, h2.ne_ok, ?_, h2.err, h2.live⟩
  rcases h2.cause with ⟨-, h | h | h⟩ | ⟨-, h⟩ | ⟨-, h, -⟩
  · rw [hi] at h; cases h
  · rw [hd] at h; cases h
  · exact absurd hn h
  · exact h
  · exact absurd h ho

/-- Options with an unknown method, and with too many points per cluster: the error codes differ. -/
example : ∃ w', scClustering sampleCfg (builtinSpi (some lineData)) { (defaultOptions : Options Int) with sizeConstraint := 2, primaryMethod := .unknown } (some lineObj) (sampleWorld [5]) =
    some ((.invalidInput, some lineObj), w') := ⟨_, rfl⟩

example : ∃ w', scClustering sampleCfg (builtinSpi (some lineData)) { (defaultOptions : Options Int) with sizeConstraint := 7 } (some lineObj) (sampleWorld [5]) =
    some ((.noSolution, some lineObj), w') := ⟨_, rfl⟩

/-- C32, second part: a call that succeeds has valid options. -/
theorem C32_ok_valid {cfg : Cfg} {spi : Spi F} {o : Options F} {ob : ClObj} {P : List Nat} {lab c : Nat → Nat} {w w' : World} {p : Option ClObj} (hl : ob.id ∈ w.live)
    (ha : OptionArrays ob.cl.n o P lab c) (h : scClustering cfg spi o (some ob) w = some ((.ok, p), w')) : ValidOptions o ob.cl.n P := by
  by_contra ho
  have h' : WpM (scClustering cfg spi o (some ob)) w fun r w' => RejectPost cfg spi o ob P w r w' :=
    scClustering_checks hl ha (fun r w' h => h) fun h => absurd h.options ho
  obtain ⟨r, w'', h1, h2⟩ := h'
  rw [h] at h1
  cases h1
  exact h2.ne_ok rfl

theorem default_valid {n S : Nat} (h2 : 2 ≤ S) (hn : S ≤ n) : ValidOptions { (defaultOptions : Options F) with sizeConstraint := S } n (List.range n) :=
  ⟨rfl, h2, hn, Or.inl ⟨by show 0 < 2; decide, rfl, rfl, rfl⟩, nofun, Or.inl ⟨rfl, rfl⟩, nofun, Or.inl rfl, ⟨Or.inl rfl, nofun, nofun⟩, ⟨nofun, nofun⟩, ⟨nofun, nofun⟩, nofun⟩

/-- C32, third part: default options with a size constraint between 2 and the number of points are accepted. The call succeeds on an empty clustering object
when nothing fails and sizes fit. -/
theorem C32_default_accepted {cfg : Cfg} {spi : Spi F} {A : Criterion F} {dist : Nat → Nat → F} {ob : ClObj} (hs : SpiOk spi ob.cl.n A dist False) {S : Nat} (h2 : 2 ≤ S) (hn : S ≤ ob.cl.n)
    {w : World} (hcfg : cfg.Valid) (hlive : {ob.id} + ptrOwn ob.cl.label ≤ w.live) (hroom : ∀ lb, ob.cl.label = some lb → ob.cl.n ≤ lb.buf.len) (hw : w.NoFail)
    (hi : ob.cl.isInitialized cfg = true) (he : ob.cl.numClusters = 0) (hd : spi.valid = true) (hsize : ob.cl.n * S ≤ cfg.sizeMax) (harc : ob.cl.n * S ≤ cfg.arcMax)
    (hlab : ob.cl.n ≤ cfg.clabelMax) :
    ∃ cl w', scClustering cfg spi { (defaultOptions : Options F) with sizeConstraint := S } (some ob) w = some ((.ok, some ⟨ob.id, cl⟩), w') := by
  have hc : CallOk cfg { (defaultOptions : Options F) with sizeConstraint := S } ob (List.range ob.cl.n) (fun _ => 0) (fun _ => 0) w :=
    ⟨hcfg, hlive, hroom, ⟨fun _ => rfl, nofun, fun x hx => List.mem_range.1 hx, nofun, nofun⟩, fun _ => ⟨hsize, fun h => absurd h (by show ¬ 2 ≤ 0; decide)⟩, fun i => hw i false⟩
  obtain ⟨cl, b, w', rows, order, L2, L3, L, h4, -⟩ := run_ok hs hc (m := .lexical) rfl ⟨hi, hd, hs.numPoints, default_valid h2 hn, he⟩ hw
    (by
      rintro (h | h | h)
      · exact absurd h (by show ¬ cfg.arcMax < ob.cl.n * S; omega)
      · omega
      · rcases h with h | h <;> cases h)
    (by
      rintro (⟨-, h, -⟩ | ⟨h, -⟩)
      · exact h rfl
      · exact absurd h (by show ¬ 2 ≤ 0; decide))
    (by rintro rows order - - ⟨⟨-, h⟩ | ⟨-, h⟩, -⟩ <;> cases h) (fun h => absurd h (by show ¬ 2 ≤ 0; decide))
  exact ⟨cl, w', h4⟩

example : ∃ cl w', scClustering sampleCfg (builtinSpi (some lineData)) { (defaultOptions : Options Int) with sizeConstraint := 3 } (some lineObj) (sampleWorld [5]) =
    some ((.ok, some ⟨5, cl⟩), w') :=
  C32_default_accepted lineSpi_ok (by decide) (by decide) sampleCfg_valid (by simp [lineObj, sampleWorld, ptrOwn, ptrIds]) nofun (fun _ _ => rfl) (by decide) rfl (by decide) (by decide) (by decide)
    (by decide)

end Scc
