/-
From the list of clusters of a successful run of `scc_hierarchical_clustering` to statements about labels.
-/
import Verif.Proofs.HiCall
import Verif.Proofs.RunFacts

namespace Scc

variable {F : Type} [FloatOps F]

section
variable {cfg : Cfg} {n S : Nat} {batch : Bool} {dist : Nat → Nat → F} {orgs : List (List Nat)} {labels0 labels : Buf Int} {k : Nat} {done : List HiEntry}

theorem HiResult.nodup (h : HiResult cfg n S batch dist orgs labels0 labels k done) (hs : ∀ O ∈ orgs, Spread S dist O) (hnd : orgs.flatten.Nodup) : (stackPts done).Nodup :=
  (h.parts hs).nodup_iff.2 hnd

theorem HiResult.get_of_mem (h : HiResult cfg n S batch dist orgs labels0 labels k done) (hs : ∀ O ∈ orgs, Spread S dist O) (hnd : orgs.flatten.Nodup) {j v : Nat} {e : HiEntry} (hj : done[j]? = some e)
    (hv : v ∈ e.pts) : labels.get v = some (j : Int) := by
  refine h.labelled v j e hj hv fun j' e' hlt hj' hv' => ?_
  have hd := h.nodup hs hnd
  unfold stackPts at hd
  rw [List.nodup_flatMap] at hd
  obtain ⟨hlen, rfl⟩ := List.getElem?_eq_some_iff.1 hj
  obtain ⟨hlen', rfl⟩ := List.getElem?_eq_some_iff.1 hj'
  have := List.pairwise_iff_getElem.1 hd.2 j j' hlen hlen' hlt
  exact this hv hv'

/-- The points that were not in a cluster are not in one afterwards; and the label of a point is its position in the list of clusters. -/
theorem HiResult.get_iff (h : HiResult cfg n S batch dist orgs labels0 labels k done) (hcfg : cfg.Valid) (hs : ∀ O ∈ orgs, Spread S dist O) (hnd : orgs.flatten.Nodup)
    (hout : ∀ v, v < n → v ∉ orgs.flatten → labels0.get v = some cfg.na) {v : Nat} (hv : v < n) {j : Nat} {e : HiEntry} (hj : done[j]? = some e) :
    labels.get v = some (j : Int) ↔ v ∈ e.pts := by
  refine ⟨fun hg => ?_, h.get_of_mem hs hnd hj⟩
  by_cases hm : ∃ e' ∈ done, v ∈ e'.pts
  · obtain ⟨e', he', hv'⟩ := hm
    obtain ⟨j', hlen, rfl⟩ := List.getElem_of_mem he'
    have hj' := List.getElem?_eq_getElem hlen
    rw [h.get_of_mem hs hnd hj' hv'] at hg
    have : j' = j := by simpa using hg
    subst this
    rw [hj'] at hj
    cases hj; exact hv'
  · have hm' : ∀ e ∈ done, v ∉ e.pts := fun e he hve => hm ⟨e, he, hve⟩
    have hnot : v ∉ orgs.flatten := fun hmem => by
      have := (h.parts hs).mem_iff.2 hmem
      obtain ⟨e', he', hv'⟩ := List.mem_flatMap.1 this
      exact hm' e' he' hv'
    rw [h.same v hm', hout v hv hnot] at hg
    have hlt := (List.getElem?_eq_some_iff.1 hj).1
    have hcap := h.cap
    have hk := h.count
    have := hcfg.na_out
    simp only [Option.some.injEq] at hg
    omega

theorem HiResult.members_perm (h : HiResult cfg n S batch dist orgs labels0 labels k done) (hcfg : cfg.Valid) (hs : ∀ O ∈ orgs, Spread S dist O) (hnd : orgs.flatten.Nodup)
    (hout : ∀ v, v < n → v ∉ orgs.flatten → labels0.get v = some cfg.na) {j : Nat} {e : HiEntry} (hj : done[j]? = some e) : (members labels n j).Perm e.pts := by
  have he := h.pieces e (List.mem_of_getElem? hj)
  refine (List.perm_ext_iff_of_nodup nodup_members he.1).2 fun v => ?_
  rw [mem_members]
  exact ⟨fun ⟨h1, h2⟩ => (h.get_iff hcfg hs hnd hout h1 hj).1 h2, fun h1 => ⟨he.2.1 v h1, h.get_of_mem hs hnd hj h1⟩⟩

theorem HiResult.entry (h : HiResult cfg n S batch dist orgs labels0 labels k done) {j : Nat} (hj : j < k) : ∃ e, done[j]? = some e ∧ e ∈ done := by
  have : j < done.length := by rw [← h.count]; exact hj
  exact ⟨done[j], List.getElem?_eq_getElem this, List.getElem_mem this⟩

end

/-- A successful run on an empty clustering. -/
theorem HiResult.partition {cfg : Cfg} {n S : Nat} {batch : Bool} {dist : Nat → Nat → F} {labels0 labels : Buf Int} {k : Nat} {done : List HiEntry}
    (h : HiResult cfg n S batch dist [List.range n] labels0 labels k done) (hcfg : cfg.Valid) (hSn : S ≤ n) (hs : Spread S dist (List.range n)) : HiPartition S n k labels := by
  have hs' : ∀ O ∈ [List.range n], Spread S dist O := by simpa using hs
  have hnd : ([List.range n] : List (List Nat)).flatten.Nodup := by simpa using List.nodup_range
  have hout : ∀ v, v < n → v ∉ ([List.range n] : List (List Nat)).flatten → labels0.get v = some cfg.na := by
    intro v hv hno; exact absurd (by simpa using hv) hno
  refine ⟨fun v hv => ?_, fun c hc => ?_⟩
  · have : v ∈ stackPts done := (h.parts hs').mem_iff.2 (by simpa using hv)
    obtain ⟨e, he, hve⟩ := List.mem_flatMap.1 this
    obtain ⟨j, hlen, rfl⟩ := List.getElem_of_mem he
    exact ⟨j, by rw [h.count]; exact hlen, h.get_of_mem hs' hnd (List.getElem?_eq_getElem hlen) hve⟩
  · obtain ⟨e, he, hem⟩ := h.entry hc
    have hp := (h.members_perm hcfg hs' hnd hout he).length_eq
    have hsm := h.small e hem
    obtain ⟨-, -, horg, hpc⟩ := h.pieces e hem
    simp only [List.mem_singleton] at horg
    rw [hp]
    refine ⟨?_, hsm.2⟩
    rcases hpc.2 with hx | hx
    · rw [hx, horg]; simpa using hSn
    · exact hx.2

theorem flatten_oldStack (labels : Buf Int) (n k : Nat) : ((oldStack labels n k).map HiEntry.pts).flatten = stackPts (oldStack labels n k) := by
  rw [stackPts, List.flatMap]

theorem mem_flatten_oldStack {labels : Buf Int} {n k v : Nat} : v ∈ ((oldStack labels n k).map HiEntry.pts).flatten ↔ ∃ c, c < k ∧ v ∈ members labels n c := by
  rw [flatten_oldStack, stackPts, List.mem_flatMap]
  constructor
  · rintro ⟨e, he, hv⟩
    obtain ⟨c, hc, rfl⟩ := mem_oldStack.1 he
    exact ⟨c, hc, by simpa [oldEntry] using hv⟩
  · rintro ⟨c, hc, hv⟩
    exact ⟨_, mem_oldStack.2 ⟨c, hc, rfl⟩, by simpa [oldEntry] using hv⟩

theorem nodup_oldStack (labels : Buf Int) (n k : Nat) : ((oldStack labels n k).map HiEntry.pts).flatten.Nodup := by
  rw [flatten_oldStack]
  induction k with
  | zero => simp [oldStack, stackPts]
  | succ k ih =>
    rw [oldStack_succ]
    have e : stackPts (oldEntry labels n k :: oldStack labels n k) = (members labels n k).reverse ++ stackPts (oldStack labels n k) := by simp [stackPts, oldEntry]
    rw [e, List.nodup_append']
    refine ⟨List.nodup_reverse.2 nodup_members, ih, fun v hv hv' => ?_⟩
    rw [← flatten_oldStack] at hv'
    obtain ⟨c, hc, hvc⟩ := mem_flatten_oldStack.1 hv'
    rw [List.mem_reverse] at hv
    have h1 := (mem_members.1 hv).2
    have h2 := (mem_members.1 hvc).2
    rw [h1] at h2
    have : (k : Int) = c := by simpa using h2
    omega

omit [FloatOps F] in
theorem members_eq_of_perm {a b : Buf Int} {n c d : Nat} (h : (members a n c).Perm (members b n d)) : members a n c = members b n d := by
  unfold members at h ⊢
  refine List.filter_congr fun v hv => ?_
  have := h.mem_iff (a := v)
  simp only [List.mem_filter, hv, true_and, decide_eq_true_eq] at this
  exact decide_eq_decide.2 this

/-- A successful run on a clustering with clusters. -/
theorem HiResult.refines {cfg : Cfg} {n S : Nat} {batch : Bool} {dist : Nat → Nat → F} {old new : Buf Int} {k k' : Nat} {done : List HiEntry}
    (h : HiResult cfg n S batch dist ((oldStack old n k).map HiEntry.pts) old new k' done) (hcfg : cfg.Valid) (hk : k ≤ cfg.clabelMax) (hv : ValidLabels cfg old n k)
    (hs : ∀ c, c < k → Spread S dist (members old n c)) : HiRefines cfg S n k old k' new := by
  have hs' : ∀ O ∈ (oldStack old n k).map HiEntry.pts, Spread S dist O := by
    intro O hO
    obtain ⟨e, he, rfl⟩ := List.mem_map.1 hO
    obtain ⟨c, hc, rfl⟩ := mem_oldStack.1 he
    intro x hx
    have := hs c hc x (by simpa [oldEntry] using hx)
    simpa [oldEntry, List.filter_reverse] using this
  have hnd := nodup_oldStack old n k
  have hout : ∀ v, v < n → v ∉ ((oldStack old n k).map HiEntry.pts).flatten → old.get v = some cfg.na := by
    intro v hvn hno
    rcases hv v hvn with hu | ⟨c, hc, hg⟩
    · exact hu
    · exact absurd (mem_flatten_oldStack.2 ⟨c, hc, mem_members.2 ⟨hvn, hg⟩⟩) hno
  -- a point is in a cluster iff it was in one before
  have hin : ∀ v, v < n → v ∈ ((oldStack old n k).map HiEntry.pts).flatten → ∃ (j : Nat) (e : HiEntry), done[j]? = some e ∧ j < k' ∧ v ∈ e.pts ∧ new.get v = some (j : Int) := by
    intro v _ hm
    have := (h.parts hs').mem_iff.2 hm
    obtain ⟨e, he, hve⟩ := List.mem_flatMap.1 this
    obtain ⟨j, hlen, rfl⟩ := List.getElem_of_mem he
    have hj := List.getElem?_eq_getElem hlen
    exact ⟨j, _, hj, by rw [h.count]; exact hlen, hve, h.get_of_mem hs' hnd hj hve⟩
  have hno : ∀ v, v < n → v ∉ ((oldStack old n k).map HiEntry.pts).flatten → new.get v = some cfg.na := by
    intro v hvn hm
    rw [h.same v fun e he hve => ?_, hout v hvn hm]
    exact hm ((h.parts hs').mem_iff.1 (List.mem_flatMap.2 ⟨e, he, hve⟩))
  -- the original of an entry
  have horg : ∀ e ∈ done, ∃ c, c < k ∧ e.org = (members old n c).reverse := by
    intro e he
    obtain ⟨-, -, ho, -⟩ := h.pieces e he
    obtain ⟨e', he', ho'⟩ := List.mem_map.1 ho
    obtain ⟨c, hc, rfl⟩ := mem_oldStack.1 he'
    exact ⟨c, hc, ho'.symm⟩
  have hmp : ∀ {j : Nat} {e : HiEntry}, done[j]? = some e → (members new n j).Perm e.pts := fun hj => h.members_perm hcfg hs' hnd hout hj
  refine ⟨fun v hvn => ?_, fun v hvn => ?_, fun u v c' hun hvn hc' hu hv' => ?_, fun c hc hne hsmall => ?_, fun c' hc' => ?_⟩
  · by_cases hm : v ∈ ((oldStack old n k).map HiEntry.pts).flatten
    · obtain ⟨j, e, -, hj, -, hg⟩ := hin v hvn hm
      exact Or.inr ⟨j, hj, hg⟩
    · exact Or.inl (hno v hvn hm)
  · by_cases hm : v ∈ ((oldStack old n k).map HiEntry.pts).flatten
    · obtain ⟨j, e, -, hj, -, hg⟩ := hin v hvn hm
      obtain ⟨c, hc, hvc⟩ := mem_flatten_oldStack.1 hm
      have h2 := (mem_members.1 hvc).2
      have := h.cap
      have := hcfg.na_out
      unfold Unassigned
      rw [hg, h2]
      simp only [Option.some.injEq]
      omega
    · unfold Unassigned
      rw [hno v hvn hm, hout v hvn hm]
  · obtain ⟨e, hj, he⟩ := h.entry hc'
    have hue := (h.get_iff hcfg hs' hnd hout hun hj).1 hu
    have hve := (h.get_iff hcfg hs' hnd hout hvn hj).1 hv'
    obtain ⟨c, hc, ho⟩ := horg e he
    have hsub := (h.pieces e he).2.2.2.1
    rw [ho] at hsub
    have h1 := hsub hue
    have h2 := hsub hve
    rw [List.mem_reverse] at h1 h2
    exact ⟨c, hc, (mem_members.1 h1).2, (mem_members.1 h2).2⟩
  · obtain ⟨v, hvm⟩ := List.exists_mem_of_ne_nil _ hne
    have hvn := (mem_members.1 hvm).1
    obtain ⟨j, e, hj, hjk, hve, hg⟩ := hin v hvn (mem_flatten_oldStack.2 ⟨c, hc, hvm⟩)
    have he := List.mem_of_getElem? hj
    obtain ⟨c2, hc2, ho⟩ := horg e he
    obtain ⟨hsub, hpc⟩ := (h.pieces e he).2.2.2
    have h1 := hsub hve
    rw [ho, List.mem_reverse] at h1
    have hcc : c2 = c := by
      have a := (mem_members.1 h1).2
      rw [(mem_members.1 hvm).2] at a
      have : (c : Int) = c2 := by simpa using a
      omega
    subst hcc
    refine ⟨j, hjk, members_eq_of_perm ?_⟩
    rcases hpc with hx | hx
    · refine (hmp hj).trans ?_
      rw [hx, ho]; exact List.reverse_perm _
    · rw [ho] at hx; simp only [List.length_reverse] at hx; omega
  · obtain ⟨e, hj, he⟩ := h.entry hc'
    have hlen := (hmp hj).length_eq
    have hsm := h.small e he
    rw [hlen]
    refine ⟨hsm.1, hsm.2, ?_⟩
    obtain ⟨c, hc, ho⟩ := horg e he
    rcases (h.pieces e he).2.2.2.2 with hx | hx
    · right
      refine ⟨c, hc, members_eq_of_perm ((hmp hj).trans ?_)⟩
      rw [hx, ho]; exact List.reverse_perm _
    · exact Or.inl hx.2

end Scc
