import Verif.Spec.Lexical

/-! Tokens at the start of a text. -/

namespace Asn1go.Spec

open Asn1go

/-- `Reads u adj t toks adj' r`: the text `t` starts with the tokens `toks`, and `r` is left after the last of them.  `adj` and `adj'` say that
a number token stands directly before `t` and `r`. -/
inductive Reads (u : Unicode) : Bool → Str → List (Int × Payload) → Bool → Str → Prop
  | nil (adj : Bool) (t : Str) : Reads u adj t [] adj t
  | cons (adj : Bool) (t sp rest : Str) (code : Int) (p : Payload) (toks : List (Int × Payload)) (adj' : Bool) (r : Str) :
      SkipTo t (sp ++ rest) → Lexeme u (adj && decide (t = sp ++ rest)) sp rest code p →
      Reads u (code == Tok.NUMBER) rest toks adj' r → Reads u adj t ((code, p) :: toks) adj' r

/-- There is no token at the start of the text, and the text is not at its end either. -/
def NoToken (u : Unicode) (adj : Bool) (t : Str) : Prop :=
  ¬ SkipTo t [] ∧ ¬ ∃ sp rest code p, SkipTo t (sp ++ rest) ∧ Lexeme u (adj && decide (t = sp ++ rest)) sp rest code p

end Asn1go.Spec
