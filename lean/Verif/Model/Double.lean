/-
The type `double` of C: binary floating point numbers with 53 bits and exponents from -1022 to 1023, as in IEEE 754 (binary64), with rounding to nearest, ties to even.

The library computes with `double` throughout (src/dist_search_imp.c:37-56, 215-250, 301-400; src/hierarchical_clustering.c:748-875; src/nng_core.c:375-415; src/utilities.c:242-320). The model of the
library is written for any type with the operations of `FloatOps`; this file gives the operations of `double`.

Simplifications. The two zeros are one value, and so are all NaNs: the library has no operation by which they differ (it divides only by converted counts). A finite value is any real number,
not only a number with 53 bits: all results of operations are rounded, and theorems for all finite values hold in particular for those that are numbers with 53 bits. It is assumed that the compiler evaluates
each operation in `double` (`FLT_EVAL_METHOD` 0, no contraction to fused operations, no `-ffast-math`).
-/
import Verif.Model.Spi
import Mathlib.Data.Int.Log
import Mathlib.Data.EReal.Basic
import Mathlib.Analysis.Real.Sqrt

namespace Scc

noncomputable section

/-- The integer closest to a number, the even one of two if both are. -/
def roundEven (x : ℝ) : ℤ :=
  if x - ⌊x⌋ < 1 / 2 then ⌊x⌋
  else if 1 / 2 < x - ⌊x⌋ then ⌊x⌋ + 1
  else if ⌊x⌋ % 2 = 0 then ⌊x⌋ else ⌊x⌋ + 1

/-- The exponent of the last of the 53 bits of `x`; at least -1074 (gradual underflow). -/
def lastBit (x : ℝ) : ℤ := max (Int.log 2 |x| - 52) (-1074)

/-- `x` rounded to 53 bits, without upper limit for the exponent. -/
def nearest53 (x : ℝ) : ℝ := roundEven (x / 2 ^ lastBit x) * 2 ^ lastBit x

/-- `DBL_MAX` -/
def maxDouble : ℝ := (2 ^ 53 - 1) * 2 ^ 971

/-- Values of type `double`. -/
inductive Dbl
  | nan
  /-- an infinity, negative or not -/
  | inf (neg : Bool)
  | fin (x : ℝ)

namespace Dbl

/-- The value as an extended real number; meaningless for a NaN. -/
def ext : Dbl → EReal
  | nan => 0
  | inf true => ⊥
  | inf false => ⊤
  | fin x => (x : EReal)

/-- Round the exact result `x` of an operation. -/
def round (x : ℝ) : Dbl := open Classical in if |nearest53 x| ≤ maxDouble then fin (nearest53 x) else inf (decide (x < 0))

def neg : Dbl → Dbl
  | nan => nan
  | inf s => inf (!s)
  | fin x => fin (-x)

def add : Dbl → Dbl → Dbl
  | nan, _ => nan
  | _, nan => nan
  | inf s, inf t => if s = t then inf s else nan
  | inf s, fin _ => inf s
  | fin _, inf t => inf t
  | fin x, fin y => round (x + y)

open Classical in
def mul : Dbl → Dbl → Dbl
  | nan, _ => nan
  | _, nan => nan
  | inf s, inf t => inf (s ^^ t)
  | inf s, fin y => if y = 0 then nan else inf (s ^^ decide (y < 0))
  | fin x, inf t => if x = 0 then nan else inf (decide (x < 0) ^^ t)
  | fin x, fin y => round (x * y)

open Classical in
def div : Dbl → Dbl → Dbl
  | nan, _ => nan
  | _, nan => nan
  | inf _, inf _ => nan
  | inf s, fin y => inf (s ^^ decide (y < 0))
  | fin _, inf _ => fin 0
  | fin x, fin y => if y = 0 then (if x = 0 then nan else inf (decide (x < 0))) else round (x / y)

open Classical in
def sqrt : Dbl → Dbl
  | nan => nan
  | inf true => nan
  | inf false => inf false
  | fin x => if x < 0 then nan else round (Real.sqrt x)

open Classical in
def le : Dbl → Dbl → Bool
  | nan, _ => false
  | _, nan => false
  | a, b => decide (a.ext ≤ b.ext)

open Classical in
def lt : Dbl → Dbl → Bool
  | nan, _ => false
  | _, nan => false
  | a, b => decide (a.ext < b.ext)

instance : FloatOps Dbl where
  zero := fin 0
  negOne := fin (-1)
  dblMax := fin maxDouble
  add := add
  sub a b := add a (neg b)
  mul := mul
  div := div
  sqrt := sqrt
  ofNat n := round n
  lt := lt
  le := le

end Dbl

end

end Scc
