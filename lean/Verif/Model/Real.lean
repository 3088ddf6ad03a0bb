import Mathlib.Data.Nat.Log
import Mathlib.Data.Rat.Defs
import Mathlib.Algebra.Field.Rat
import Verif.Model.Ast

/-! parser.go:41-51: the value of a REAL literal. -/

namespace Asn1go

/-- parser.go:41-51 `parseRealNumber`, in exact arithmetic; `realFloat` in Model/Float.lean has the rounding, overflow and
underflow of float64.
`Nat.clog 10 n` is the least `k` with `n ≤ 10 ^ k`; Proofs/Real.lean shows that it is `math.Ceil(math.Log10(n))`.  The parser calls
the function with a `fraction` that is a NUMBER, which is never negative. -/
def parseRealNumber (integer fraction exponent : Int) : ℚ :=
  let value : ℚ := integer
  let value := if fraction ≠ 0 then value + (fraction : ℚ) / 10 ^ Nat.clog 10 fraction.toNat else value
  if exponent ≠ 0 then value * 10 ^ exponent else value

/-- The number that a symbolic real stands for; infinities have none.  ast.go:244-246 for `neg`. -/
def GoReal.value : GoReal → Option ℚ
  | .lit i f e => some (parseRealNumber i f e)
  | .neg x => x.value.map (fun v => -v)
  | .posInf => none
  | .negInf => none

end Asn1go
