import Mathlib.Algebra.Order.Field.Rat
import Mathlib.Algebra.Order.Floor.Defs
import Mathlib.Data.Rat.Floor
import Mathlib.Analysis.SpecialFunctions.Log.Base
import Verif.Model.Real

/-! The arithmetic of Go's float64 (IEEE 754 binary64) as far as parser.go:41-51 and ast.go:244-246 need it, and the float64 that
parser.go:41-51 computes.  Left out: the sign of zero and the payload of NaN. -/

namespace Asn1go

/-- A float64.  ast.go:236 -/
inductive F64
  | fin (q : ℚ)
  | inf (negative : Bool)
  | nan
  deriving DecidableEq, Repr

/-- The nearest integer; of two equally near ones, the even one.  For parser.go:42-48. -/
def roundEven (y : ℚ) : Int :=
  if y - ⌊y⌋ < 1 / 2 then ⌊y⌋ else if 1 / 2 < y - ⌊y⌋ then ⌊y⌋ + 1 else if ⌊y⌋ % 2 = 0 then ⌊y⌋ else ⌊y⌋ + 1

/-- For positive `q`, the `k` with `2 ^ k ≤ q < 2 ^ (k + 1)`.  For parser.go:42-48. -/
def binaryExponent (q : ℚ) : Int :=
  let k : Int := (Nat.log2 q.num.natAbs : Int) - Nat.log2 q.den
  if (2 : ℚ) ^ k ≤ q then k else k - 1

/-- The exponent of the last of the 53 bits of a float64 near `q`; float64 has no bits below `2 ^ -1074`.  For parser.go:42-48. -/
def lastBit (q : ℚ) : Int := max (binaryExponent |q| - 52) (-1074)

namespace F64

/-- The float64 for a number: the nearest one, to even on a tie.
The conversion at parser.go:42 and 44-45; part of the arithmetic of parser.go:45-48. -/
def round (q : ℚ) : F64 :=
  let r : ℚ := roundEven (q / 2 ^ lastBit q) * 2 ^ lastBit q
  if |r| < 2 ^ 1024 then .fin r else .inf (decide (q < 0))

/-- Addition.  parser.go:45 -/
def add : F64 → F64 → F64
  | .fin a, .fin b => round (a + b)
  | .fin _, .inf s => .inf s
  | .inf s, .fin _ => .inf s
  | .inf s, .inf t => if s = t then .inf s else .nan
  | .nan, _ => .nan
  | _, .nan => .nan

/-- Multiplication.  parser.go:48 -/
def mul : F64 → F64 → F64
  | .fin a, .fin b => round (a * b)
  | .fin a, .inf s => if a = 0 then .nan else .inf (s != decide (a < 0))
  | .inf s, .fin a => if a = 0 then .nan else .inf (s != decide (a < 0))
  | .inf s, .inf t => .inf (s != t)
  | .nan, _ => .nan
  | _, .nan => .nan

/-- Division.  parser.go:45 -/
def div : F64 → F64 → F64
  | .fin a, .fin b => if b = 0 then (if a = 0 then .nan else .inf (decide (a < 0))) else round (a / b)
  | .fin _, .inf _ => .fin 0
  | .inf s, .fin a => .inf (s != decide (a < 0))
  | .inf _, .inf _ => .nan
  | .nan, _ => .nan
  | _, .nan => .nan

/-- Change of sign.  ast.go:245 -/
def neg : F64 → F64
  | .fin a => .fin (-a)
  | .inf s => .inf (!s)
  | .nan => .nan

/-- `math.Pow10`: the product or quotient of two constants of its tables of powers of ten, which are `1e0` to `1e31`,
`1e0`, `1e32` to `1e288` and `1e-0`, `1e-32` to `1e-320`.  Called at parser.go:44 and 48. -/
def pow10 (n : Int) : F64 :=
  if 0 ≤ n ∧ n ≤ 308 then (round (10 ^ (32 * (n / 32)))).mul (round (10 ^ (n % 32)))
  else if -323 ≤ n ∧ n ≤ 0 then (round (10 ^ (-(32 * (-n / 32))))).div (round (10 ^ (-n % 32)))
  else if 0 < n then .inf false else .fin 0

end F64

/-- What is assumed of `math.Log10`, which is computed differently on different machines: on numbers from 1 to 2^64 it differs from
the logarithm by 2^-46 at most, and it is exact on 1.  Called at parser.go:44. -/
structure MathLog10 where
  /-- the function -/
  value : ℚ → ℚ
  close : ∀ x : ℚ, 1 ≤ x → x ≤ 2 ^ 64 → |((value x : ℚ) : ℝ) - Real.logb 10 (x : ℝ)| ≤ 1 / 2 ^ 46
  one : value 1 = 0

/-- parser.go:44, the argument of `math.Pow10`: `int(math.Ceil(math.Log10(float64(fraction))))`.  The parser calls
parser.go:41-51 with a `fraction` that is not negative, so that `float64(fraction)` is a positive number here. -/
def MathLog10.shift (log : MathLog10) (fraction : Int) : Int :=
  match F64.round fraction with
  | .fin q => ⌈log.value q⌉
  | _ => 0

/-- parser.go:41-51 `parseRealNumber`. -/
def realFloat (log : MathLog10) (integer fraction exponent : Int) : F64 :=
  let value := F64.round integer
  let value := if fraction ≠ 0 then value.add ((F64.round fraction).div (F64.pow10 (log.shift fraction))) else value
  if exponent ≠ 0 then value.mul (F64.pow10 exponent) else value

/-- The float64 that a symbolic real stands for.  ast.go:244-246 for `neg`, asn1.y:645-646 for the infinities. -/
def GoReal.float (log : MathLog10) : GoReal → F64
  | .lit i f e => realFloat log i f e
  | .neg x => (x.float log).neg
  | .posInf => .inf false
  | .negInf => .inf true

end Asn1go
