/-
Concrete digraph objects, used for the examples beside the property theorems.
-/
import Verif.Proofs.DigraphM

namespace Scc

/-- A configuration: 32-bit points and arcs, labels up to 2^31 - 1, NA = -2^31 as in the default build. -/
def sampleCfg : Cfg := ⟨2 ^ 32 - 1, 2 ^ 32 - 1, 2 ^ 31 - 1, -2 ^ 31, 2 ^ 64 - 1, 2 ^ 64 - 1, false, false⟩

theorem sampleCfg_valid : sampleCfg.Valid := ⟨by decide, by decide, by decide, by decide, by decide⟩

/-- The digraph object with the given rows, stored in blocks `i` and `i + 1`. -/
def mkDigraph (i : Nat) (rows : List (List Nat)) : Digraph :=
  let r := fun v => rows.getD v []
  let n := rows.length
  ⟨n, off r n, if off r n = 0 then none else some ⟨i, Buf.ofList (allArcs r n)⟩,
    some ⟨i + 1, Buf.ofList ((List.range (n + 1)).map (off r))⟩⟩

theorem mkDigraph_repr {cfg : Cfg} {i : Nat} {rows : List (List Nat)} (hr : ∀ r ∈ rows, ∀ a ∈ r, a < rows.length)
    (h1 : rows.length ≤ cfg.pointMax) (h2 : off (fun v => rows.getD v []) rows.length ≤ cfg.arcMax)
    (h3 : off (fun v => rows.getD v []) rows.length ≤ cfg.sizeMax) :
    (mkDigraph i rows).Repr cfg (fun v => rows.getD v []) := by
  set r := fun v => rows.getD v [] with hrdef
  have hhead : ∀ j, (ptrBuf (mkDigraph i rows).head).get j = (allArcs r rows.length)[j]? := by
    intro j
    unfold mkDigraph
    simp only []
    split
    · rename_i h0
      have : (allArcs r rows.length).length = 0 := by rw [length_allArcs]; exact h0
      rw [List.length_eq_zero_iff.1 this]; simp [ptrBuf]
    · simp [ptrBuf, hrdef]
  refine ⟨csr_of_pre (fun j a hj => by rw [hhead]; exact hj) (fun v hv => ?_) (fun v hv a ha => ?_), ?_, ?_, h1, h2, h3, ?_⟩
  · show (Buf.ofList ((List.range (rows.length + 1)).map (off r))).get v = _
    have hv' : v < rows.length + 1 := by have : (mkDigraph i rows).n = rows.length := rfl; omega
    simp [hv']
  · have hv' : v < rows.length := hv
    have : r v = rows[v] := by simp [hrdef, hv']
    rw [this] at ha
    exact hr _ (List.getElem_mem hv') a ha
  · show (Buf.ofList ((List.range (rows.length + 1)).map (off r))).len = _
    simp [mkDigraph]
  · unfold mkDigraph
    simp only []
    split
    · rename_i h0; rw [h0]; rfl
    · simp [ptrBuf, length_allArcs]
  · unfold mkDigraph
    simp only []
    split <;> simp_all

/-- A world with the given live blocks in which no allocation fails; the next block is 100. -/
def sampleWorld (live : List Nat) : World := ⟨fun _ _ => false, 100, (live : Multiset Nat), ErrInfo.none⟩

/-- Contents of a digraph object: the arcs and the row offsets. -/
def Digraph.contents (d : Digraph) : Option (List Nat × List Nat) := do
  let t ← (ptrBuf d.tail).read (d.n + 1)
  let m ← (ptrBuf d.tail).get d.n
  let h ← (ptrBuf d.head).read m
  pure (h, t)

/-- Contents of the digraph a call produced. -/
def newContents (r : Option (Except ErrorCode Digraph × World)) : Option (List Nat × List Nat) :=
  match r with
  | some (.ok d, _) => d.contents
  | _ => none

end Scc
