import Verif.Model.Lexer

/-! Model of /repo/internal/utils/dump.go.  Strings are lists of characters, one per byte. -/

namespace Asn1go

/-- strings.Split with a separator of one byte.  Called at dump.go:15-16. -/
def splitAt1 (sep : Char) : Str → List Str
  | [] => [[]]
  | c :: l => if c = sep then [] :: splitAt1 sep l else
    match splitAt1 sep l with
    | [] => [[c]]
    | w :: ws => (c :: w) :: ws

/-- The value of a digit in strconv.ParseUint, before the comparison with the base.  For dump.go:21. -/
def digitValue (c : Char) : Option Nat :=
  if 48 ≤ c.toNat ∧ c.toNat ≤ 57 then some (c.toNat - 48)
  else if 97 ≤ c.toNat ∧ c.toNat ≤ 122 then some (c.toNat - 97 + 10)
  else if 65 ≤ c.toNat ∧ c.toNat ≤ 90 then some (c.toNat - 65 + 10)
  else none

/-- The loop of strconv.ParseUint(s, 16, 9): `none` for any error.  For dump.go:21. -/
def parseUint9Loop : Nat → Str → Option Nat
  | n, [] => some n
  | n, c :: l =>
    match digitValue c with
    | none => none
    | some d => if 16 ≤ d then none else if 511 < n * 16 + d then none else parseUint9Loop (n * 16 + d) l

/-- strconv.ParseUint(s, 16, 9), for dump.go:21. -/
def parseUint9 (s : Str) : Option Nat := if s = [] then none else parseUint9Loop 0 s

/-- strconv.ParseInt(s, 16, 9), called at dump.go:21. -/
def parseInt9 (s : Str) : Option Int :=
  match s with
  | [] => none
  | c :: l =>
    let neg := c = '-'
    let digits := if c = '-' ∨ c = '+' then l else c :: l
    match parseUint9 digits with
    | none => none
    | some un =>
      if ¬ neg ∧ 256 ≤ un then none
      else if neg ∧ 256 < un then none
      else some (if neg then -(un : Int) else un)

/-- dump.go:17-26: the bytes of the fields of a line; `none` is a panic. -/
def parseFields : List Str → Option (List UInt8)
  | [] => some []
  | f :: l =>
    if f = [] then parseFields l
    else
      match parseInt9 f with
      | none => none
      | some x =>
        match parseFields l with
        | none => none
        | some bs => some (UInt8.ofNat (x % 256).toNat :: bs)

/-- dump.go:15-27: the bytes of the lines.  `elems[1:]` is in range, as `Split` returns at least one element. -/
def parseLines : List Str → Option (List UInt8)
  | [] => some []
  | line :: l =>
    match parseFields (splitAt1 ' ' line).tail with
    | none => none
    | some bs =>
      match parseLines l with
      | none => none
      | some bs' => some (bs ++ bs')

/-- dump.go:13-29 `ParseWiresharkHex`; `none` is a panic. -/
def parseWiresharkHex (str : Str) : Option (List UInt8) := parseLines (splitAt1 '\n' str)

end Asn1go
