/-
Property C69 for the built-in distance functions: in a build with assertions they do the same as in a build without, for all calls that follow include/scclust_spi.h:45-84 and all states
of the heap.
-/
import Verif.Proofs.AssertSearch
import Verif.Props.Clustering

namespace Scc

variable {F : Type} [FloatOps F]

/-- C69 for the built-in distance functions on an initialised data set. The lists `L`, `Q`, `C` are the contents of the arrays of search points, of queries and of columns; all of them
must be indices of data points. A search with a radius needs a positive radius and an array for the queries that were answered. -/
theorem C69_search {ds : DataSet F} (hi : ds.isInitialized = true) :
    (∀ (len : Nat) (arr : Option Arr), 0 < len → (builtinSpiDbg (some ds)).nnInit len arr = (builtinSpi (some ds)).nnInit len arr) ∧
    (∀ (len : Nat) (arr : Option Arr), 0 < len → (builtinSpiDbg (some ds)).maxInit len arr = (builtinSpi (some ds)).maxInit len arr) ∧
    (∀ (o : SearchObj) (L : List Nat) (queries : Option Arr) (Q : List Nat) (k : Nat) (rs : Bool) (radius : F) (oq : OutQ) (nn : Buf Nat),
      ArrHolds o.search L → L.length = o.len → (∀ x ∈ L, x < ds.n) → ArrHolds queries Q → (∀ q ∈ Q, q < ds.n) → 0 < Q.length → 0 < k → k ≤ o.len →
      (rs = true → FloatOps.lt FloatOps.zero radius = true ∧ oq ≠ .null) → (oq = .same → queries ≠ none) →
      (builtinSpiDbg (some ds)).nnSearch o Q.length queries k rs radius oq nn = (builtinSpi (some ds)).nnSearch o Q.length queries k rs radius oq nn) ∧
    (∀ (o : SearchObj) (L : List Nat) (queries : Option Arr) (Q : List Nat) (outI : Buf Nat) (outD : Buf F),
      ArrHolds o.search L → L.length = o.len → 0 < o.len → (∀ x ∈ L, x < ds.n) → ArrHolds queries Q → (∀ q ∈ Q, q < ds.n) → 0 < Q.length →
      (builtinSpiDbg (some ds)).maxDist o Q.length queries outI outD = (builtinSpi (some ds)).maxDist o Q.length queries outI outD) ∧
    (∀ (queries : Option Arr) (Q : List Nat) (cols : Option Arr) (C : List Nat) (out : Buf F),
      ArrHolds queries Q → (∀ q ∈ Q, q < ds.n) → 0 < Q.length → ArrHolds cols C → (∀ c ∈ C, c < ds.n) → 0 < C.length →
      (builtinSpiDbg (some ds)).distRows Q.length queries C.length cols out = (builtinSpi (some ds)).distRows Q.length queries C.length cols out) ∧
    (∀ (points : Option Arr) (L : List Nat) (out : Buf F), ArrHolds points L → (∀ x ∈ L, x < ds.n) → 1 < L.length →
      (builtinSpiDbg (some ds)).distMatrix L.length points out = (builtinSpi (some ds)).distMatrix L.length points out) := by
  refine ⟨fun len arr h => searchInitDbg_eq hi h arr, fun len arr h => searchInitDbg_eq hi h arr, ?_, ?_, ?_, ?_⟩
  · intro o L queries Q k rs radius oq nn hs hl hsr hq hqr h2 hk0 hk hrad hal
    exact nnSearchDbg_eq hi hs hl hsr hq hqr h2 hk0 (hl ▸ hk) (fun h => (hrad h).1) (fun h => (hrad h).2) hal nn
  · intro o L queries Q outI outD hs hl h0 hsr hq hqr h2
    show (useK _ (maxDistKDbg ds o.len o.search Q.length queries outI outD) >>= _) = (useK _ (maxDistK ds o.len o.search Q.length queries outI outD) >>= _)
    rw [← hl, maxDistKDbg_eq hi hs hsr hq hqr (hl ▸ h0) h2]
  · intro queries Q cols C out hq hqr h1 hc hcr h2
    show (useK _ (distRowsKDbg ds Q.length queries C.length cols out) >>= _) = (useK _ (distRowsK ds Q.length queries C.length cols out) >>= _)
    rw [distRowsKDbg_eq hi hq hqr hc hcr h1 h2]
  · intro points L out hp hr h1
    show (useK _ (distMatrixKDbg ds L.length points out) >>= _) = (useK _ (distMatrixK ds L.length points out) >>= _)
    rw [distMatrixKDbg_eq hi hp hr h1]

/-- The six points on a line: a search with radius 4 for the two nearest neighbours among four of them, with an answered and an unanswered query (point 5 at 20 has no second point within
the radius). Points 2 and 5 are the queries. -/
example : lineData.isInitialized = true ∧
    ((builtinSpiDbg (some lineData)).nnSearch ⟨5, 4, some ⟨[6], Buf.ofList [0, 1, 3, 5]⟩⟩ 2 (some ⟨[7], Buf.ofList [2, 5]⟩) 2 true 4 .same (Buf.raw 4) (sampleWorld [5, 6, 7])).map
      (fun r => r.1.map fun o => (o.numOk, o.outQ.get 0, o.nn.get 0, o.nn.get 1)) = some (some (1, some 2, some 1, some 0)) := by
  decide +kernel

/-- An assertion catches a call outside of the contract: the radius is not positive. -/
example : ((builtinSpiDbg (some lineData)).nnSearch ⟨5, 4, some ⟨[6], Buf.ofList [0, 1, 3, 5]⟩⟩ 2 (some ⟨[7], Buf.ofList [2, 5]⟩) 2 true 0 .same (Buf.raw 4)
    (sampleWorld [5, 6, 7])).isNone = true := by
  decide +kernel

end Scc
