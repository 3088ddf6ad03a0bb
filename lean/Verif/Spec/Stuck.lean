import Verif.Spec.Lexical

/-! Text at which a failing reader is not noticed. -/

namespace Asn1go.Spec

open Asn1go

/-- The text `t` after `--` has no end of the comment. -/
def LineOpen (t : Str) : Prop := (∀ c ∈ t, ¬ LineEnd c) ∧ ¬ (['-', '-'] <:+: t)

/-- What is met when nothing more is skipped: a comment that is not closed, or `:` or `.` with less than two characters after it. -/
inductive StuckAt : Str → Prop
  | line (t : Str) : t.head? ≠ some '-' → LineOpen t → StuckAt ('-' :: '-' :: t)
  | block (t : Str) : t.head? ≠ some '/' → BlockOpen t → StuckAt ('/' :: '*' :: t)
  | colon (t : Str) : t.length < 2 → StuckAt (':' :: t)
  | dot (t : Str) : t.length < 2 → StuckAt ('.' :: t)

/-- After layout there is a comment that is not closed, or `:` or `.` with less than two characters after it. -/
def Stuck (t : Str) : Prop := ∃ m, SkipTo t m ∧ StuckAt m

end Asn1go.Spec
