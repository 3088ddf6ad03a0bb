import Verif.Spec.Lexical

/-! How Go's package encoding/asn1 reads the tag of a struct field (`parseFieldParameters` in its common.go),
written from its documentation and source, independent of the generator. -/

namespace Asn1go.Spec

open Asn1go

/-- encoding/asn1 `fieldParameters`; `none` is a nil pointer, string and time types are universal tag numbers, 0 if not given. -/
structure FieldParams where
  optional : Bool := false
  explicit : Bool := false
  application : Bool := false
  isPrivate : Bool := false
  dflt : Option Int := none
  tag : Option Int := none
  stringType : Nat := 0
  timeType : Nat := 0
  set : Bool := false
  omitEmpty : Bool := false
  deriving DecidableEq, Repr

/-- An optional sign and decimal digits. -/
def signed : Str → Option Int
  | '-' :: l => if l ≠ [] ∧ l.all (fun c => decide (48 ≤ c.toNat ∧ c.toNat ≤ 57)) then some (-(decimal l : Int)) else none
  | '+' :: l => if l ≠ [] ∧ l.all (fun c => decide (48 ≤ c.toNat ∧ c.toNat ≤ 57)) then some (decimal l) else none
  | l => if l ≠ [] ∧ l.all (fun c => decide (48 ≤ c.toNat ∧ c.toNat ≤ 57)) then some (decimal l) else none

/-- strconv.ParseInt(s, 10, 64) and strconv.Atoi. -/
def parseInt64 (s : Str) : Option Int :=
  match signed s with
  | some n => if -9223372036854775808 ≤ n ∧ n ≤ 9223372036854775807 then some n else none
  | none => none

/-- The text before the first comma and the text after it. -/
def cutComma : Str → Str × Str
  | [] => ([], [])
  | c :: l => if c = ',' then ([], l) else (c :: (cutComma l).1, (cutComma l).2)

/-- One part of the tag. -/
def readPart (p : FieldParams) (part : Str) : FieldParams :=
  if part = c! "optional" then { p with optional := true }
  else if part = c! "explicit" then { p with explicit := true, tag := some (p.tag.getD 0) }
  else if part = c! "generalized" then { p with timeType := 24 }
  else if part = c! "utc" then { p with timeType := 23 }
  else if part = c! "ia5" then { p with stringType := 22 }
  else if part = c! "printable" then { p with stringType := 19 }
  else if part = c! "numeric" then { p with stringType := 18 }
  else if part = c! "utf8" then { p with stringType := 12 }
  else if c! "default:" <+: part then
    match parseInt64 (part.drop 8) with
    | some n => { p with dflt := some n }
    | none => p
  else if c! "tag:" <+: part then
    match parseInt64 (part.drop 4) with
    | some n => { p with tag := some n }
    | none => p
  else if part = c! "set" then { p with set := true }
  else if part = c! "application" then { p with application := true, tag := some (p.tag.getD 0) }
  else if part = c! "private" then { p with isPrivate := true, tag := some (p.tag.getD 0) }
  else if part = c! "omitempty" then { p with omitEmpty := true }
  else p

/-- The loop over the parts; the fuel is at least the length of the text. -/
def readParts : Nat → FieldParams → Str → FieldParams
  | 0, p, _ => p
  | fuel + 1, p, s => if s = [] then p else readParts fuel (readPart p (cutComma s).1) (cutComma s).2

/-- encoding/asn1 `parseFieldParameters` -/
def readFieldParams (s : Str) : FieldParams := readParts s.length {} s

/-- The value for the key `asn1` of a struct tag literal that has only this key (reflect `StructTag.Get`). -/
def asn1Key (lit : Str) : Option Str :=
  if c! "`asn1:\"" <+: lit ∧ c! "\"`" <:+ lit ∧ 9 ≤ lit.length then some ((lit.drop 7).take (lit.length - 9)) else none

/-- The parameters of a field with the given tag literal, if any. -/
def fieldParams : Option Str → FieldParams
  | none => {}
  | some lit => readFieldParams ((asn1Key lit).getD [])

/-- The texts between commas. -/
def splitCommas : Str → List Str
  | [] => [[]]
  | c :: l => if c = ',' then [] :: splitCommas l else
    match splitCommas l with
    | [] => [[c]]
    | w :: ws => (c :: w) :: ws

/-- The parts of a tag literal, if any. -/
def tagParts : Option Str → List Str
  | none => []
  | some lit => splitCommas ((asn1Key lit).getD [])

end Asn1go.Spec
