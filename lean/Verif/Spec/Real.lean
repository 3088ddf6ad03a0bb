import Mathlib.Data.Rat.Defs
import Mathlib.Algebra.Field.Rat
import Verif.Spec.Tree

/-! REAL literals and the numbers they denote (X.680 clause 12.9, 21). -/

namespace Asn1go.Spec

/-- A literal: digits, digits after the dot, and sign and digits of the exponent. -/
structure RealLit where
  whole : Str
  frac : Option Str := none
  exp : Option (Bool × Str) := none

/-- A number token. -/
def numberToken (w : Str) : Token := (Tok.NUMBER, .number w (decimal w))

/-- The tokens of a literal. -/
def RealLit.tokens (l : RealLit) : List Token :=
  numberToken l.whole ::
    ((match l.frac with | none => [] | some f => [(Tok.DOT, .none), numberToken f]) ++
     match l.exp with
     | none => []
     | some (false, e) => [(Tok.EXPONENT, .none), numberToken e]
     | some (true, e) => [(Tok.EXPONENT, .none), (Tok.MINUS, .none), numberToken e])

/-- The exponent of a literal. -/
def RealLit.exponent (l : RealLit) : Int :=
  match l.exp with
  | none => 0
  | some (false, e) => decimal e
  | some (true, e) => - decimal e

/-- The fraction digits of a literal. -/
def RealLit.fraction (l : RealLit) : Str := l.frac.getD []

/-- The number a literal denotes: `k` digits after the dot count `10 ^ -k`. -/
def RealLit.value (l : RealLit) : ℚ :=
  ((decimal l.whole : ℚ) + (decimal l.fraction : ℚ) / 10 ^ l.fraction.length) * 10 ^ l.exponent

end Asn1go.Spec
