import Verif.Model.Lexer

/-! Hex dumps, independent of the parser for them. -/

namespace Asn1go.Spec

/-- The texts with the separator between them. -/
def joined (sep : Char) : List Str → Str
  | [] => []
  | [a] => a
  | a :: l => a ++ sep :: joined sep l

/-- The value of a hexadecimal digit. -/
def hexDigit (c : Char) : Option Nat :=
  if '0' ≤ c ∧ c ≤ '9' then some (c.toNat - '0'.toNat)
  else if 'a' ≤ c ∧ c ≤ 'f' then some (c.toNat - 'a'.toNat + 10)
  else if 'A' ≤ c ∧ c ≤ 'F' then some (c.toNat - 'A'.toNat + 10)
  else none

/-- `Hex s n`: the digits `s`, at least one, have the value `n`, by weight of position. -/
inductive Hex : Str → Nat → Prop
  | one (c : Char) (d : Nat) : hexDigit c = some d → Hex [c] d
  | more (c : Char) (s : Str) (d n : Nat) : hexDigit c = some d → Hex s n → Hex (c :: s) (d * 16 ^ s.length + n)

/-- `SignedHex s x`: an optional sign and hexadecimal digits with the value `x`. -/
inductive SignedHex : Str → Int → Prop
  | plain (s : Str) (n : Nat) : Hex s n → SignedHex s n
  | plus (s : Str) (n : Nat) : Hex s n → SignedHex ('+' :: s) n
  | minus (s : Str) (n : Nat) : Hex s n → SignedHex ('-' :: s) (-n)

/-- The field is read as a byte: it has a value between -256 and 255, taken modulo 256. -/
def FieldByte (s : Str) (b : UInt8) : Prop := ∃ x : Int, SignedHex s x ∧ -256 ≤ x ∧ x ≤ 255 ∧ (b.toNat : Int) = x % 256

/-- A line as fields: at least one, without spaces and newlines. -/
def LineFields (l : List Str) : Prop := l ≠ [] ∧ ∀ f ∈ l, ' ' ∉ f ∧ '\n' ∉ f

/-- A text with the fields of its lines. -/
structure TextFields (text : Str) (lines : List (List Str)) : Prop where
  lines_ne : lines ≠ []
  fields : ∀ l ∈ lines, LineFields l
  text_eq : text = joined '\n' (lines.map (joined ' '))

/-- The fields that stand for bytes: on each line all but the first, unless empty. -/
def byteFields (lines : List (List Str)) : List Str := lines.flatMap fun l => l.tail.filter (· ≠ [])

/-- The two digits of a byte, in capital or small letters. -/
def hexOf (upper : Bool) (b : UInt8) : Str :=
  let digit (n : Nat) : Char := if n < 10 then Char.ofNat (48 + n) else if upper then Char.ofNat (55 + n) else Char.ofNat (87 + n)
  [digit (b.toNat / 16), digit (b.toNat % 16)]

/-- A line of a dump: a label, some spaces, and each byte after a space. -/
structure DumpLine where
  label : Str
  gap : Nat
  upper : Bool
  bytes : List UInt8

/-- The text of a line. -/
def DumpLine.text (l : DumpLine) : Str := l.label ++ List.replicate l.gap ' ' ++ l.bytes.flatMap fun b => ' ' :: hexOf l.upper b

end Asn1go.Spec
