import Mathlib.Algebra.Order.Field.Rat
import Mathlib.Data.Rat.Defs

/-! The numbers that IEEE 754 binary64 can represent. -/

namespace Asn1go.Spec

/-- A multiple of a power of two with at most 53 bits, with exponents as IEEE 754 has them. -/
def IsFloat64 (r : ℚ) : Prop := ∃ m e : Int, |m| < 2 ^ 53 ∧ -1074 ≤ e ∧ e ≤ 971 ∧ r = m * 2 ^ e

end Asn1go.Spec
