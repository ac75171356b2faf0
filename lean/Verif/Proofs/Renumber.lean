/-
Lemmas on renumbered points and clusters.
-/
import Verif.Proofs.StatsPure
import Verif.Spec.Renumber

namespace Scc

variable {F : Type}

theorem Renumbering.perm {n : Nat} {σ : Nat → Nat} (h : Renumbering n σ) : ((List.range n).map σ).Perm (List.range n) := by
  refine List.Subperm.perm_of_length_le (List.subperm_of_subset ?_ ?_) (by simp)
  · exact List.Nodup.map_on (fun u hu v hv e => h.inj u v (List.mem_range.1 hu) (List.mem_range.1 hv) e) List.nodup_range
  · intro x hx
    obtain ⟨v, hv, rfl⟩ := List.mem_map.1 hx
    exact List.mem_range.2 (h.range v (List.mem_range.1 hv))

theorem Renumbering.surj {n : Nat} {σ : Nat → Nat} (h : Renumbering n σ) {x : Nat} (hx : x < n) : ∃ v, v < n ∧ σ v = x := by
  obtain ⟨v, hv, e⟩ := List.mem_map.1 (h.perm.mem_iff.2 (List.mem_range.2 hx))
  exact ⟨v, List.mem_range.1 hv, e⟩

/-- Filtering by corresponding conditions. -/
theorem Renumbering.filter_perm {n : Nat} {σ : Nat → Nat} (h : Renumbering n σ) {p q : Nat → Bool} (hpq : ∀ v, v < n → q (σ v) = p v) :
    (((List.range n).filter p).map σ).Perm ((List.range n).filter q) := by
  refine List.Perm.trans ?_ (h.perm.filter q)
  rw [List.filter_map]
  refine List.Perm.of_eq (congrArg _ (List.filter_congr fun v hv => ?_))
  exact (hpq v (List.mem_range.1 hv)).symm

theorem renameLabel_cluster {k c : Nat} {τ : Nat → Nat} (hc : c < k) : renameLabel k τ (c : Int) = (τ c : Int) := by
  unfold renameLabel
  rw [if_pos ⟨by omega, by omega⟩]
  simp

theorem renameLabel_inj {k : Nat} {τ : Nat → Nat} (h : Renumbering k τ) {l l' : Int} (e : renameLabel k τ l = renameLabel k τ l') : l = l' := by
  unfold renameLabel at e
  split at e <;> split at e
  · next h1 h2 =>
    have := h.inj l.toNat l'.toNat (by omega) (by omega) (by exact_mod_cast e)
    omega
  · next h1 h2 =>
    have := h.range l.toNat (by omega)
    omega
  · next h1 h2 =>
    have := h.range l'.toNat (by omega)
    omega
  · exact e

theorem renameLabel_na {cfg : Cfg} (hcfg : cfg.Valid) {k : Nat} (hk : k ≤ cfg.clabelMax) (τ : Nat → Nat) : renameLabel k τ cfg.na = cfg.na := by
  unfold renameLabel
  rw [if_neg]
  rintro ⟨h1, h2⟩
  rcases hcfg.na_out with h | h <;> omega

section
variable {n k : Nat} {σ τ : Nat → Nat} {b b' : Buf Int}

theorem RenumberedLabels.get_iff (hτ : Renumbering k τ) (h : RenumberedLabels n k σ τ b b') {v : Nat} (hv : v < n) (l : Int) : b'.get (σ v) = some (renameLabel k τ l) ↔ b.get v = some l := by
  rw [h v hv]
  cases hb : b.get v with
  | none => simp
  | some l' =>
    simp only [Option.map_some, Option.some.injEq]
    exact ⟨fun e => renameLabel_inj hτ e, fun e => by rw [e]⟩

theorem RenumberedLabels.members (hσ : Renumbering n σ) (hτ : Renumbering k τ) (h : RenumberedLabels n k σ τ b b') {c : Nat} (hc : c < k) : ((members b n c).map σ).Perm (members b' n (τ c)) := by
  refine hσ.filter_perm fun v hv => ?_
  rw [decide_eq_decide, ← renameLabel_cluster (τ := τ) hc]
  exact h.get_iff hτ hv _

theorem RenumberedLabels.length (hσ : Renumbering n σ) (hτ : Renumbering k τ) (h : RenumberedLabels n k σ τ b b') {c : Nat} (hc : c < k) : (Scc.members b' n (τ c)).length = (Scc.members b n c).length := by
  rw [← (h.members hσ hτ hc).length_eq, List.length_map]

theorem RenumberedLabels.unassigned {cfg : Cfg} (hcfg : cfg.Valid) (hk : k ≤ cfg.clabelMax) (hτ : Renumbering k τ) (h : RenumberedLabels n k σ τ b b') {v : Nat} (hv : v < n) : Unassigned cfg b' (σ v) ↔ Unassigned cfg b v := by
  have := h.get_iff hτ hv cfg.na
  rw [renameLabel_na hcfg hk] at this
  exact this

theorem RenumberedLabels.clustersFrom (hσ : Renumbering n σ) (hτ : Renumbering k τ) (h : RenumberedLabels n k σ τ b b') (s : Nat) : ((clustersFrom b n k s).map τ).Perm (clustersFrom b' n k s) :=
  hτ.filter_perm fun c hc => by rw [h.length hσ hτ hc]

/-- Clusterings that are the same up to numbering meet the same constraints. -/
theorem RenumberedLabels.meets {cfg : Cfg} (hcfg : cfg.Valid) (hk : k ≤ cfg.clabelMax) (hσ : Renumbering n σ) (hτ : Renumbering k τ) (h : RenumberedLabels n k σ τ b b') {o o' : Options F} {P P' : List Nat}
    {lab c lab' c' : Nat → Nat} (hc : SameConstraints n σ o P lab c o' P' lab' c') (hP' : ∀ x ∈ P', x < n) (hm : MeetsConstraints cfg o P lab c n k b) : MeetsConstraints cfg o' P' lab' c' n k b' where
  labels v' hv' := by
    obtain ⟨v, hv, rfl⟩ := hσ.surj hv'
    rcases hm.labels v hv with h1 | ⟨i, hi, h1⟩
    · exact Or.inl ((h.unassigned hcfg hk hτ hv).2 h1)
    · exact Or.inr ⟨τ i, hτ.range i hi, by rw [← renameLabel_cluster (τ := τ) hi]; exact (h.get_iff hτ hv _).2 h1⟩
  primary hp v' hv' hu := by
    obtain ⟨v, hv, rfl⟩ := hσ.surj (hP' v' hv')
    exact hm.primary (fun e => hp (hc.given.2 e)) v ((hc.primary v hv).1 hv') ((h.unassigned hcfg hk hτ hv).1 hu)
  size i' hi' := by
    obtain ⟨i, hi, rfl⟩ := hτ.surj hi'
    rw [hc.size, h.length hσ hτ hi]
    exact hm.size i hi
  types ht i' hi' t ht' := by
    obtain ⟨i, hi, rfl⟩ := hτ.surj hi'
    rw [hc.numTypes] at ht ht'
    rw [hc.constraints t ht', ← (h.members hσ hτ hi).countP_eq, List.countP_map]
    refine (hm.types ht i hi t ht').trans_eq (List.countP_congr fun v hv => ?_)
    have hvn : v < n := List.mem_range.1 (List.mem_filter.1 hv).1
    simp [hc.types v hvn]

theorem Renumbering.symm {n : Nat} {σ : Nat → Nat} (h : Renumbering n σ) : ∃ ρ, Renumbering n ρ ∧ (∀ v, v < n → ρ (σ v) = v) ∧ ∀ v, v < n → σ (ρ v) = v := by
  classical
  have hs : ∀ x, ∃ v, x < n → v < n ∧ σ v = x := fun x => by
    by_cases hx : x < n
    · obtain ⟨v, h1, h2⟩ := h.surj hx; exact ⟨v, fun _ => ⟨h1, h2⟩⟩
    · exact ⟨0, fun h => absurd h hx⟩
  choose ρ hρ using hs
  refine ⟨ρ, ⟨fun v hv => (hρ v hv).1, fun u v hu hv e => ?_⟩, fun v hv => ?_, fun v hv => (hρ v hv).2⟩
  · rw [← (hρ u hu).2, ← (hρ v hv).2, e]
  · obtain ⟨h1, h2⟩ := hρ (σ v) (h.range v hv)
    exact h.inj _ _ h1 hv h2

theorem RenumberedLabels.symm (hσ : Renumbering n σ) (hτ : Renumbering k τ) (h : RenumberedLabels n k σ τ b b') {σ' τ' : Nat → Nat} (hσ' : ∀ v, v < n → σ (σ' v) = v) (hr : Renumbering n σ')
    (hτ' : ∀ v, v < k → τ' (τ v) = v) : RenumberedLabels n k σ' τ' b' b := by
  intro v hv
  have h1 := h (σ' v) (hr.range v hv)
  rw [hσ' v hv] at h1
  rw [h1]
  cases hb : b.get (σ' v) with
  | none => rfl
  | some l =>
    simp only [Option.map_some, Option.some.injEq]
    unfold renameLabel
    by_cases hl : 0 ≤ l ∧ l < k
    · have h2 := hτ.range l.toNat (by omega)
      rw [if_pos hl, if_pos ⟨by omega, by omega⟩, Int.toNat_natCast, hτ' _ (by omega)]
      omega
    · rw [if_neg hl, if_neg hl]

theorem SameConstraints.symm {o o' : Options F} {P P' : List Nat} {lab c lab' c' : Nat → Nat} (hc : SameConstraints n σ o P lab c o' P' lab' c') {σ' : Nat → Nat} (hσ' : ∀ v, v < n → σ (σ' v) = v)
    (hr : Renumbering n σ') : SameConstraints n σ' o' P' lab' c' o P lab c where
  size := hc.size.symm
  given := hc.given.symm
  primary v hv := by
    have := hc.primary (σ' v) (hr.range v hv)
    rw [hσ' v hv] at this
    exact this.symm
  numTypes := hc.numTypes.symm
  types v hv := by
    have := hc.types (σ' v) (hr.range v hv)
    rw [hσ' v hv] at this
    exact this.symm
  constraints t ht := (hc.constraints t (by rw [hc.numTypes] at ht; exact ht)).symm

theorem RenumberedLabels.meets_iff {cfg : Cfg} (hcfg : cfg.Valid) (hk : k ≤ cfg.clabelMax) (hσ : Renumbering n σ) (hτ : Renumbering k τ) (h : RenumberedLabels n k σ τ b b') {o o' : Options F} {P P' : List Nat}
    {lab c lab' c' : Nat → Nat} (hc : SameConstraints n σ o P lab c o' P' lab' c') (hP : ∀ x ∈ P, x < n) (hP' : ∀ x ∈ P', x < n) :
    MeetsConstraints cfg o' P' lab' c' n k b' ↔ MeetsConstraints cfg o P lab c n k b := by
  obtain ⟨σ', r1, r2, r3⟩ := hσ.symm
  obtain ⟨τ', t1, t2, -⟩ := hτ.symm
  exact ⟨fun hm => (h.symm hσ hτ r3 r1 t2).meets hcfg hk r1 t1 (hc.symm r3 r1) hP hm, fun hm => h.meets hcfg hk hσ hτ hc hP' hm⟩

end

/-- Constraints that are the same up to numbering can be met or not. -/
theorem CanMeet.renumber {n : Nat} {σ : Nat → Nat} (hσ : Renumbering n σ) {within within' : Nat → Nat → F → Prop} {o o' : Options F} {P P' : List Nat} {lab c lab' c' : Nat → Nat}
    (hc : SameConstraints n σ o P lab c o' P' lab' c') (hP : ∀ x ∈ P, x < n) (hr : o.seedRadius = o'.seedRadius)
    (hw : ∀ v x, v < n → x < n → within v x o.seedSupplied → within' (σ v) (σ x) o'.seedSupplied) (h : CanMeet n within o P lab c) : CanMeet n within' o' P' lab' c' where
  types ht t ht' := by
    rw [hc.numTypes] at ht ht'
    rw [hc.constraints t ht', ← (hσ.filter_perm (p := fun v => decide (lab v = t)) (q := fun v => decide (lab' v = t)) fun v hv => by rw [hc.types v hv]).length_eq, List.length_map]
    exact h.types ht t ht'
  radius hr' := by
    obtain ⟨v, hv, ⟨l, l1, l2, l3⟩, h2⟩ := h.radius (hr.trans hr')
    have hvn := hP v hv
    refine ⟨σ v, (hc.primary v hvn).2 hv, ⟨l.map σ, l1.map_on fun x hx y hy e => hσ.inj x y (l3 x hx).1 (l3 y hy).1 e, by rw [List.length_map, l2, hc.size], fun x' hx' => ?_⟩, fun ht t ht' => ?_⟩
    · obtain ⟨x, hx, rfl⟩ := List.mem_map.1 hx'
      exact ⟨hσ.range x (l3 x hx).1, hw v x hvn (l3 x hx).1 (l3 x hx).2⟩
    · rw [hc.numTypes] at ht ht'
      obtain ⟨m, m1, m2, m3⟩ := h2 ht t ht'
      refine ⟨m.map σ, m1.map_on fun x hx y hy e => hσ.inj x y (m3 x hx).1 (m3 y hy).1 e, by rw [List.length_map, m2, hc.constraints t ht'], fun x' hx' => ?_⟩
      obtain ⟨x, hx, rfl⟩ := List.mem_map.1 hx'
      obtain ⟨g1, g2, g3⟩ := m3 x hx
      exact ⟨hσ.range x g1, by rw [hc.types x g1, g2], hw v x hvn g1 g3⟩

/-! ### Statistics -/

section
variable [FloatOps F] {n k : Nat} {σ τ : Nat → Nat} {b b' : Buf Int}

theorem RenumberedLabels.dists (hσ : Renumbering n σ) (hτ : Renumbering k τ) (h : RenumberedLabels n k σ τ b b') {dist dist' : Nat → Nat → F} (hs : ∀ p q, p < n → q < n → dist p q = dist q p)
    (hd : ∀ p q, p < n → q < n → dist' (σ p) (σ q) = dist p q) {c : Nat} (hc : c < k) : (clusterDists dist b n c).Perm (clusterDists dist' b' n (τ c)) := by
  have hm := h.members hσ hτ hc
  have hin : ∀ x ∈ (Scc.members b n c).map σ, ∃ v, v < n ∧ σ v = x := fun x hx => by
    obtain ⟨v, hv, rfl⟩ := List.mem_map.1 hx
    exact ⟨v, List.mem_range.1 (List.mem_filter.1 hv).1, rfl⟩
  have hp : ((Scc.members b n c).map σ).reverse.Perm (Scc.members b' n (τ c)).reverse := (List.reverse_perm _).trans (hm.trans (List.reverse_perm _).symm)
  have h1 := upperPairs_map_perm hp dist' fun x hx y hy => by
    obtain ⟨u, hu, rfl⟩ := hin x (List.mem_reverse.1 hx)
    obtain ⟨v, hv, rfl⟩ := hin y (List.mem_reverse.1 hy)
    rw [hd u v hu hv, hd v u hv hu, hs u v hu hv]
  refine List.Perm.trans (List.Perm.of_eq ?_) h1
  unfold clusterDists
  rw [← List.map_reverse]
  have hlt : ∀ x ∈ (Scc.members b n c).reverse, x < n := fun x hx => List.mem_range.1 (List.mem_filter.1 (List.mem_reverse.1 hx)).1
  generalize (Scc.members b n c).reverse = l at hlt
  induction l with
  | nil => rfl
  | cons x l ih =>
    simp only [List.map_cons, upperPairs, List.map_append, List.map_map]
    rw [ih fun y hy => hlt y (List.mem_cons_of_mem _ hy)]
    refine congrArg (· ++ _) (List.map_congr_left fun y hy => ?_)
    exact (hd x y (hlt x (by simp)) (hlt y (List.mem_cons_of_mem _ hy))).symm

theorem ExactAdd.clusterSum_perm (hadd : ExactAdd F) {cs cs' : List Nat} {f g : Nat → F} (h : (cs.map f).Perm (cs'.map g)) : clusterSum cs f = clusterSum cs' g := by
  have e : ∀ (cs : List Nat) (f : Nat → F), clusterSum cs f = sumOf (cs.map f) := fun cs f => by
    rw [hadd.sumOf_eq, List.foldl_map]
    rfl
  rw [e, e]
  exact hadd.sumOf_perm h

/-- Sums over clusters do not depend on the numbering. -/
theorem RenumberedLabels.clusterSum (hadd : ExactAdd F) (hσ : Renumbering n σ) (hτ : Renumbering k τ) (h : RenumberedLabels n k σ τ b b') (s : Nat) {f g : Nat → F} (hfg : ∀ c ∈ Scc.clustersFrom b n k s, g (τ c) = f c) :
    clusterSum (Scc.clustersFrom b' n k s) g = clusterSum (Scc.clustersFrom b n k s) f := by
  refine (hadd.clusterSum_perm ?_).symm
  refine List.Perm.trans (List.Perm.of_eq ?_) ((h.clustersFrom hσ hτ s).map g)
  rw [List.map_map]
  exact List.map_congr_left fun c hc => (hfg c hc).symm

theorem least_perm (hF : FloatLaws F) (hanti : ∀ a b : F, FloatOps.le a b = true → FloatOps.le b a = true → a = b) {l l' : List F} (hp : l.Perm l') (hnum : ∀ d ∈ l, IsNum d) : leastOf l = leastOf l' := by
  by_cases hne : l = []
  · subst hne; rw [hp.nil_eq]
  · obtain ⟨h1, h2⟩ := least_spec hF hnum hne
    obtain ⟨h3, h4⟩ := least_spec hF (l := l') (fun d hd => hnum d (hp.mem_iff.2 hd)) (fun e => hne (by rw [e] at hp; exact hp.eq_nil))
    exact hanti _ _ (h2 _ (hp.mem_iff.2 h3)) (h4 _ (hp.mem_iff.1 h1))

theorem greatest_perm (hF : FloatLaws F) (hanti : ∀ a b : F, FloatOps.le a b = true → FloatOps.le b a = true → a = b) {l l' : List F} (hp : l.Perm l') (hnum : ∀ d ∈ l, IsNum d) : greatestOf l = greatestOf l' := by
  by_cases hne : l = []
  · subst hne; rw [hp.nil_eq]
  · obtain ⟨h1, h2⟩ := greatest_spec hF hnum hne
    obtain ⟨h3, h4⟩ := greatest_spec hF (l := l') (fun d hd => hnum d (hp.mem_iff.2 hd)) (fun e => hne (by rw [e] at hp; exact hp.eq_nil))
    exact hanti _ _ (h4 _ (hp.mem_iff.1 h1)) (h2 _ (hp.mem_iff.2 h3))

theorem RenumberedLabels.pairs (hσ : Renumbering n σ) (hτ : Renumbering k τ) (h : RenumberedLabels n k σ τ b b') {i j : Nat} (hs : SameCluster b n k i j) : SameCluster b' n k (σ i) (σ j) := by
  obtain ⟨hi, hj, c, hc, h1, h2⟩ := hs
  refine ⟨hσ.range i hi, hσ.range j hj, τ c, hτ.range c hc, ?_, ?_⟩ <;> rw [← renameLabel_cluster (τ := τ) hc]
  · exact (h.get_iff hτ hi _).2 h1
  · exact (h.get_iff hτ hj _).2 h2

theorem RenumberedLabels.pairs_of (hσ : Renumbering n σ) (hτ : Renumbering k τ) (h : RenumberedLabels n k σ τ b b') {x y : Nat} (hs : SameCluster b' n k x y) : ∃ i j, σ i = x ∧ σ j = y ∧ SameCluster b n k i j := by
  obtain ⟨hx, hy, c', hc', h1, h2⟩ := hs
  obtain ⟨i, hi, rfl⟩ := hσ.surj hx
  obtain ⟨j, hj, rfl⟩ := hσ.surj hy
  obtain ⟨c, hc, rfl⟩ := hτ.surj hc'
  rw [← renameLabel_cluster (τ := τ) hc] at h1 h2
  exact ⟨i, j, rfl, rfl, hi, hj, c, hc, (h.get_iff hτ hi _).1 h1, (h.get_iff hτ hj _).1 h2⟩

/-- Statistics do not depend on the numbering, in exact arithmetic. -/
theorem RenumberedLabels.stats {cfg : Cfg} (hcfg : cfg.Valid) (hk : k ≤ cfg.clabelMax) (hadd : ExactAdd F) (hanti : ∀ a b : F, FloatOps.le a b = true → FloatOps.le b a = true → a = b)
    (hσ : Renumbering n σ) (hτ : Renumbering k τ) (h : RenumberedLabels n k σ τ b b') {dist dist' : Nat → Nat → F} (hfin : FiniteDists n dist) (hd : ∀ p q, p < n → q < n → dist' (σ p) (σ q) = dist p q)
    {s s' : Stats F} (hs : StatsAre cfg dist n k b s) (hs' : StatsAre cfg dist' n k b' s') (he : ExtremesAre dist n k b s) (he' : ExtremesAre dist' n k b' s')
    (hz : Scc.clustersFrom b n k 1 = [] → s = UnpopulatedStats n k) (hz' : Scc.clustersFrom b' n k 1 = [] → s' = UnpopulatedStats n k) : s' = s := by
  have hcl := h.clustersFrom hσ hτ
  by_cases hpop : Scc.clustersFrom b n k 1 = []
  · rw [hz hpop, hz']
    have := hcl 1
    rw [hpop] at this
    exact this.nil_eq.symm
  have hpop' : Scc.clustersFrom b' n k 1 ≠ [] := fun e => hpop (by
    have := hcl 1
    rw [e] at this
    exact List.map_eq_nil_iff.1 this.eq_nil)
  have hmem : ∀ {s c}, c ∈ Scc.clustersFrom b n k s → c < k := fun hc => List.mem_range.1 (List.mem_filter.1 hc).1
  have hperm : ∀ {s c}, c ∈ Scc.clustersFrom b n k s → (clusterDists dist b n c).Perm (clusterDists dist' b' n (τ c)) := fun hc => h.dists hσ hτ hfin.symm hd (hmem hc)
  have hnum : ∀ c, ∀ d ∈ clusterDists dist b n c, IsNum d := by
    intro c d hd'
    obtain ⟨p, hp, rfl⟩ := List.mem_map.1 hd'
    obtain ⟨h1, h2⟩ := mem_upperPairs_mem hp
    exact hfin.num _ _ (List.mem_range.1 (List.mem_filter.1 (List.mem_reverse.1 h1)).1) (List.mem_range.1 (List.mem_filter.1 (List.mem_reverse.1 h2)).1)
  have e1 : s'.numAssigned = s.numAssigned := by
    rw [hs'.assigned, hs.assigned, ← (hσ.filter_perm (p := fun v => decide (b.get v ≠ some cfg.na)) (q := fun v => decide (b'.get v ≠ some cfg.na)) fun v hv => ?_).length_eq, List.length_map]
    have := h.unassigned hcfg hk hτ hv
    unfold Unassigned at this
    simp only [ne_eq, this]
  have e2 : s'.populated = s.populated := by rw [hs'.populated, hs.populated, ← (hcl 1).length_eq, List.length_map]
  have hmap : ∀ {c' s}, c' ∈ Scc.clustersFrom b' n k s → ∃ c ∈ Scc.clustersFrom b n k s, τ c = c' := fun hc => List.mem_map.1 ((hcl _).mem_iff.2 hc)
  have hto : ∀ {c s}, c ∈ Scc.clustersFrom b n k s → τ c ∈ Scc.clustersFrom b' n k s := fun hc => (hcl _).mem_iff.1 (List.mem_map_of_mem hc)
  have hlen : ∀ {c s}, c ∈ Scc.clustersFrom b n k s → (Scc.members b' n (τ c)).length = (Scc.members b n c).length := fun hc => h.length hσ hτ (hmem hc)
  have e3 : s'.minSize = s.minSize := by
    obtain ⟨c, hc, hc2⟩ := hs.minSize.2 hpop
    obtain ⟨d', hd', hd2⟩ := hs'.minSize.2 hpop'
    obtain ⟨d, hdm, rfl⟩ := hmap hd'
    have h1 := hs'.minSize.1 _ (hto hc)
    have h2 := hs.minSize.1 d hdm
    rw [hlen hc] at h1
    rw [hlen hdm] at hd2
    omega
  have e4 : s'.maxSize = s.maxSize := by
    obtain ⟨c, hc, hc2⟩ := hs.maxSize.2 hpop
    obtain ⟨d', hd', hd2⟩ := hs'.maxSize.2 hpop'
    obtain ⟨d, hdm, rfl⟩ := hmap hd'
    have h1 := hs'.maxSize.1 _ (hto hc)
    have h2 := hs.maxSize.1 d hdm
    rw [hlen hc] at h1
    rw [hlen hdm] at hd2
    omega
  have e5 : s'.sumDists = s.sumDists := by
    rw [hs'.sumDists, hs.sumDists]
    exact h.clusterSum hadd hσ hτ 2 fun c hc => (hadd.sumOf_perm (hperm hc)).symm
  have e6 : s'.avgMin = s.avgMin := by
    rw [hs'.avgMin hpop', hs.avgMin hpop, e2, h.clusterSum hadd hσ hτ 2 fun c hc => (least_perm hfin.order hanti (hperm hc) (hnum c)).symm]
  have e7 : s'.avgMax = s.avgMax := by
    rw [hs'.avgMax hpop', hs.avgMax hpop, e2, h.clusterSum hadd hσ hτ 2 fun c hc => (greatest_perm hfin.order hanti (hperm hc) (hnum c)).symm]
  have e8 : s'.avgWeighted = s.avgWeighted := by
    rw [hs'.avgWeighted hpop', hs.avgWeighted hpop, e1, h.clusterSum hadd hσ hτ 2 fun c hc => by rw [hlen hc, (hadd.sumOf_perm (hperm hc)).symm, ← (hperm hc).length_eq]]
  have e9 : s'.avgUnweighted = s.avgUnweighted := by
    rw [hs'.avgUnweighted hpop', hs.avgUnweighted hpop, e2, h.clusterSum hadd hσ hτ 2 fun c hc => by rw [(hadd.sumOf_perm (hperm hc)).symm, ← (hperm hc).length_eq]]
  have e10 : s'.avgSize = s.avgSize := by rw [hs'.avgSize hpop', hs.avgSize hpop, e1, e2]
  have hne : ∀ {i j}, SameCluster b n k i j → i ≠ j → σ i ≠ σ j := fun hij hne e => hne (hσ.inj _ _ hij.1 hij.2.1 e)
  have hpairs : (∃ i j, i ≠ j ∧ SameCluster b' n k i j) ↔ ∃ i j, i ≠ j ∧ SameCluster b n k i j := by
    constructor
    · rintro ⟨x, y, hxy, hs⟩
      obtain ⟨i, j, rfl, rfl, hs2⟩ := h.pairs_of hσ hτ hs
      exact ⟨i, j, fun e => hxy (by rw [e]), hs2⟩
    · rintro ⟨i, j, hij, hs⟩
      exact ⟨σ i, σ j, hne hs hij, h.pairs hσ hτ hs⟩
  have e11 : s'.maxDist = s.maxDist := by
    by_cases hp : ∃ i j, i ≠ j ∧ SameCluster b n k i j
    · obtain ⟨i, j, h1, h2, h3⟩ := he.max_is hp
      obtain ⟨x, y, h4, h5, h6⟩ := he'.max_is (hpairs.2 hp)
      obtain ⟨u, v, rfl, rfl, h7⟩ := h.pairs_of hσ hτ h5
      have h8 := he.le_max u v (fun e => h4 (by rw [e])) h7
      have h9 := he'.le_max _ _ (hne h2 h1) (h.pairs hσ hτ h2)
      rw [hd _ _ h7.1 h7.2.1] at h6
      rw [hd _ _ h2.1 h2.2.1] at h9
      exact hanti _ _ (hfin.order.trans _ _ _ h6 h8) (hfin.order.trans _ _ _ h3 h9)
    · rw [he.max_zero hp, he'.max_zero fun hp' => hp (hpairs.1 hp')]
  have halone : (∃ c, c < k ∧ (Scc.members b' n c).length = 1) ↔ ∃ c, c < k ∧ (Scc.members b n c).length = 1 := by
    constructor
    · rintro ⟨c', hc', h1⟩
      obtain ⟨c, hc, rfl⟩ := hτ.surj hc'
      exact ⟨c, hc, by rw [← h.length hσ hτ hc]; exact h1⟩
    · rintro ⟨c, hc, h1⟩
      exact ⟨τ c, hτ.range c hc, by rw [h.length hσ hτ hc]; exact h1⟩
  have e12 : s'.minDist = s.minDist := by
    by_cases ha : ∃ c, c < k ∧ (Scc.members b n c).length = 1
    · rw [he.alone ha, he'.alone (halone.2 ha)]
    · have ha' : ∀ c, c < k → (Scc.members b n c).length ≠ 1 := fun c hc e => ha ⟨c, hc, e⟩
      have ha2 : ∀ c, c < k → (Scc.members b' n c).length ≠ 1 := fun c hc e => ha (halone.1 ⟨c, hc, e⟩)
      have hp : ∃ i j, i ≠ j ∧ SameCluster b n k i j := by
        obtain ⟨c, hc⟩ := List.exists_mem_of_ne_nil _ hpop
        have h1 : 1 ≤ (Scc.members b n c).length := by simpa using (List.mem_filter.1 hc).2
        have h2 := ha' c (hmem hc)
        have hnd : (Scc.members b n c).Nodup := List.nodup_range.filter _
        match hm : Scc.members b n c, h1, h2 with
        | [x], _, h2 => exact absurd rfl h2
        | x :: y :: r, _, _ =>
          rw [hm] at hnd
          have hx : x ∈ Scc.members b n c := by rw [hm]; simp
          have hy : y ∈ Scc.members b n c := by rw [hm]; simp
          obtain ⟨hx1, hx2⟩ := List.mem_filter.1 hx
          obtain ⟨hy1, hy2⟩ := List.mem_filter.1 hy
          exact ⟨x, y, fun e => by simp [e] at hnd, List.mem_range.1 hx1, List.mem_range.1 hy1, c, hmem hc, by simpa using hx2, by simpa using hy2⟩
      obtain ⟨i, j, h1, h2, h3⟩ := he.min_is hp ha'
      obtain ⟨x, y, h4, h5, h6⟩ := he'.min_is (hpairs.2 hp) ha2
      obtain ⟨u, v, rfl, rfl, h7⟩ := h.pairs_of hσ hτ h5
      have h8 := he.min_le u v (fun e => h4 (by rw [e])) h7
      have h9 := he'.min_le _ _ (hne h2 h1) (h.pairs hσ hτ h2)
      rw [hd _ _ h7.1 h7.2.1] at h6
      rw [hd _ _ h2.1 h2.2.1] at h9
      exact hanti _ _ (hfin.order.trans _ _ _ h9 h3) (hfin.order.trans _ _ _ h8 h6)
  have e0 : s'.numPoints = s.numPoints := by rw [hs'.points, hs.points]
  have e00 : s'.numClusters = s.numClusters := by rw [hs'.clusters, hs.clusters]
  cases s; cases s'
  dsimp only at *
  subst e0 e1 e00 e2 e3 e4 e10 e5 e12 e11 e6 e7 e8 e9
  rfl

end

end Scc
