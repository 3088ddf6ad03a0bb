import Verif.Spec.GoValue
import Verif.Spec.StructTag

/-! How Go's package encoding/asn1 encodes values (`makeField`, `makeBody` and their helpers in its marshal.go, and
`getUniversalType` in its common.go), written from its source, independent of the generator.  Errors are `none` and not told
apart.  Lengths are natural numbers, without the bound of a Go `int`. -/

namespace Asn1go.Spec

open Asn1go

/-- The base `k` digits of a number, most significant first; the fuel is at least the number itself. -/
def digitsOf (k : Nat) : Nat → Nat → List Nat
  | 0, _ => []
  | fuel + 1, n => if n < k then [n] else digitsOf k fuel (n / k) ++ [n % k]

/-- Set the high bit of all but the last. -/
def continued : List Nat → Bytes
  | [] => []
  | [d] => [UInt8.ofNat d]
  | d :: l => UInt8.ofNat (128 + d) :: continued l

/-- `appendBase128Int`: nothing for negative numbers. -/
def base128 (n : Int) : Bytes := if n < 0 then [] else continued (digitsOf 128 (n.toNat + 1) n.toNat)

/-- `appendLength` -/
def base256 (n : Nat) : Bytes := (digitsOf 256 (n + 1) n).map UInt8.ofNat

/-- `appendTagAndLength` -/
def header (cls : Nat) (tag : Int) (compound : Bool) (length : Nat) : Bytes :=
  let b := 64 * cls + if compound then 32 else 0
  (if tag ≥ 31 then UInt8.ofNat (b + 31) :: base128 tag else [UInt8.ofNat b ||| UInt8.ofNat (tag % 256).toNat]) ++
    if length ≥ 128 then UInt8.ofNat (128 + (base256 length).length) :: base256 length else [UInt8.ofNat length]

/-- The length of an `int64Encoder`; the fuel is at least the number of octets. -/
def intLength : Nat → Int → Nat
  | 0, _ => 1
  | fuel + 1, n => if n > 127 ∨ n < -128 then intLength fuel (n / 256) + 1 else 1

/-- The `k` low octets of a number, most significant first. -/
def intOctets : Nat → Int → Bytes
  | 0, _ => []
  | k + 1, n => intOctets k (n / 256) ++ [UInt8.ofNat (n % 256).toNat]

/-- `int64Encoder`; `int64`s have at most 8 octets. -/
def encodeInt (n : Int) : Bytes := intOctets (intLength 8 n) n

/-- The absolute value as `big.Int.Bytes` gives it: no octets for 0. -/
def bigBytes (n : Nat) : Bytes := if n = 0 then [] else base256 n

/-- `makeBigInt` -/
def encodeBig : Option Int → Option Bytes
  | none => none
  | some n =>
    if n < 0 then
      let bs := (bigBytes (-n - 1).toNat).map fun b => b ^^^ 255
      match bs with
      | [] => some [255]
      | b :: _ => some (if b < 128 then 255 :: bs else bs)
    else if n = 0 then some [0]
    else
      let bs := bigBytes n.toNat
      match bs with
      | [] => some []
      | b :: _ => some (if b ≥ 128 then 0 :: bs else bs)

/-- `makeObjectIdentifier`; the first two arcs are joined in an `int`. -/
def encodeOid : Option (List Int) → Option Bytes
  | some (a :: b :: l) => if a > 2 ∨ (a < 2 ∧ b ≥ 40) then none else some (base128 (Int.bmod (a * 40 + b) (2 ^ 64)) ++ l.flatMap base128)
  | _ => none

/-- `bitStringEncoder` -/
def encodeBits (b : Option Bytes) (n : Int) : Bytes := UInt8.ofNat (((8 - n.tmod 8).tmod 8) % 256).toNat :: b.getD []

/-- `appendTwoDigits` -/
def twoDigits (n : Nat) : Bytes := [UInt8.ofNat (48 + n / 10 % 10), UInt8.ofNat (48 + n % 10)]

/-- `appendTimeCommon` -/
def timeCommon (t : GoTime) : Bytes :=
  twoDigits t.month ++ twoDigits t.day ++ twoDigits t.hour ++ twoDigits t.minute ++ twoDigits t.second ++
    if t.offset.tdiv 60 = 0 then [90]
    else (if t.offset > 0 then 43 else 45) :: (twoDigits ((t.offset.tdiv 60).natAbs / 60) ++ twoDigits ((t.offset.tdiv 60).natAbs % 60))

/-- `outsideUTCRange` -/
def outsideUTCRange (t : GoTime) : Bool := t.year < 1950 || t.year ≥ 2050

/-- `makeUTCTime` -/
def encodeUTCTime (t : GoTime) : Option Bytes :=
  if 1950 ≤ t.year ∧ t.year < 2000 then some (twoDigits (t.year - 1900).toNat ++ timeCommon t)
  else if 2000 ≤ t.year ∧ t.year < 2050 then some (twoDigits (t.year - 2000).toNat ++ timeCommon t)
  else none

/-- `makeGeneralizedTime` -/
def encodeGeneralizedTime (t : GoTime) : Option Bytes :=
  if t.year < 0 ∨ t.year > 9999 then none
  else some (twoDigits (t.year.toNat / 100) ++ twoDigits (t.year.toNat % 100) ++ timeCommon t)

/-- `isPrintable` without asterisk and ampersand -/
def printableChar (c : Char) : Bool :=
  ('a' ≤ c && c ≤ 'z') || ('A' ≤ c && c ≤ 'Z') || ('0' ≤ c && c ≤ '9') || ('\'' ≤ c && c ≤ ')') || ('+' ≤ c && c ≤ '/') ||
    c == ' ' || c == ':' || c == '=' || c == '?'

/-- The octets of a string. -/
def stringBytes (s : Str) : Bytes := s.flatMap utf8Bytes

/-- The body of a string: `makeIA5String`, `makePrintableString`, `makeNumericString`, `makeUTF8String`. -/
def encodeString (stringType : Nat) (s : Str) : Option Bytes :=
  if stringType = 22 then if s.all (fun c => c.toNat ≤ 127) then some (stringBytes s) else none
  else if stringType = 19 then if s.all printableChar then some (stringBytes s) else none
  else if stringType = 18 then if s.all (fun c => ('0' ≤ c && c ≤ '9') || c == ' ') then some (stringBytes s) else none
  else some (stringBytes s)

/-- `bytes.Compare(a, b) <= 0` -/
def bytesLe : Bytes → Bytes → Bool
  | [], _ => true
  | _ :: _, [] => false
  | a :: as, b :: bs => a < b || (a == b && bytesLe as bs)

/-- Insert into a sorted list. -/
def insertBytes (x : Bytes) : List Bytes → List Bytes
  | [] => [x]
  | y :: l => if bytesLe x y then x :: y :: l else y :: insertBytes x l

/-- The sorting of `setEncoder`. -/
def sortBytes : List Bytes → List Bytes
  | [] => []
  | x :: l => insertBytes x (sortBytes l)

/-- `getUniversalType`: tag and whether the encoding is constructed. -/
def universalType : GoVal → Option (Nat × Bool)
  | .bool _ => some (1, false)
  | .int _ => some (2, false)
  | .enum _ => some (10, false)
  | .big _ => some (2, false)
  | .str _ => some (19, false)
  | .bytes _ => some (4, false)
  | .bits _ _ => some (3, false)
  | .oid _ => some (6, false)
  | .time _ => some (23, false)
  | .slice n _ _ => some (if c! "SET" <:+ n then 17 else 16, true)
  | .struct _ => some (16, true)
  | .float => none
  | .raw _ _ _ _ _ => none
  | .nilIface => none
  | .iface _ => none

/-- The tag for strings and times, by parameters and value. -/
def valueTag (p : FieldParams) (tag : Nat) : GoVal → Nat
  | .str s => if p.stringType = 0 then if s.all printableChar then 19 else 12 else p.stringType
  | .time t => if p.timeType = 24 || outsideUTCRange t then 24 else 23
  | _ => tag

/-- The tag `makeField` decides for. -/
def chooseTag (p : FieldParams) (v : GoVal) (tag : Nat) : Option Nat :=
  if p.timeType ≠ 0 ∧ tag ≠ 23 then none
  else if p.stringType ≠ 0 ∧ tag ≠ 19 then none
  else if p.set then if valueTag p tag v ≠ 16 then none else some 17
  else some (valueTag p tag v)

/-- `makeBody`; `children` are the encodings of elements or fields. -/
def makeBody (p : FieldParams) (children : Option (List Bytes)) : GoVal → Option Bytes
  | .bool b => some [if b then 255 else 0]
  | .int n => some (encodeInt n)
  | .enum n => some (encodeInt n)
  | .big n => encodeBig n
  | .str s => encodeString p.stringType s
  | .bytes b => some (b.getD [])
  | .bits b n => some (encodeBits b n)
  | .oid l => encodeOid l
  | .time t => if p.timeType = 24 || outsideUTCRange t then encodeGeneralizedTime t else encodeUTCTime t
  | .slice _ _ _ => children.map fun l => (if p.set then sortBytes l else l).flatten
  | .struct _ => children.map List.flatten
  | _ => none

/-- The value is left out: an empty slice with omitempty, the default value, or the zero value without default. -/
def leftOut (p : FieldParams) (v : GoVal) : Bool :=
  (p.omitEmpty && match v with
    | .slice _ _ l => l.isEmpty
    | .bytes b => (b.getD []).isEmpty
    | .oid l => (l.getD []).isEmpty
    | _ => false) ||
  (p.optional && match p.dflt with
    | some d => match v with
      | .int n => n == d
      | .enum n => n == d
      | _ => false
    | none => v.isZero)

/-- `makeField` after the tag and the body are known. -/
def addTags (p : FieldParams) (tag : Nat) (compound : Bool) (body : Bytes) : Bytes :=
  match p.tag with
  | none => header 0 tag compound body.length ++ body
  | some n =>
    let cls := if p.application then 1 else if p.isPrivate then 3 else 2
    if p.explicit then
      let inner := header 0 tag compound body.length ++ body
      header cls n true inner.length ++ inner
    else header cls n compound body.length ++ body

/-- `makeField` for values that are not interfaces. -/
def makeValue (p : FieldParams) (v : GoVal) (children : Option (List Bytes)) : Option Bytes :=
  if leftOut p v then some []
  else match v with
    | .raw cls tag k b full =>
      if (full.getD []) ≠ [] then full else some (header cls.toNat tag k (b.getD []).length ++ b.getD [])
    | v =>
      match universalType v with
      | none => none
      | some (tag, compound) =>
        match chooseTag p v tag with
        | none => none
        | some tag' =>
          match makeBody { p with set := p.set || tag' == 17 } children v with
          | none => none
          | some body => some (addTags p tag' compound body)

/-- Names of exported fields start with a capital. -/
def exported (u : Casing) (n : Str) : Bool := n.head?.map u.isUpper == some true

mutual

/-- `makeField` -/
def makeField (u : Casing) : GoVal → FieldParams → Option Bytes
  | .nilIface, _ => none
  | .iface v, p => makeField u v p
  | .struct fs, p => makeValue p (.struct fs) (makeFields u fs)
  | .slice n z l, p => makeValue p (.slice n z l) (makeElems u l)
  | v, p => makeValue p v (some [])

/-- The elements of a slice. -/
def makeElems (u : Casing) : List GoVal → Option (List Bytes)
  | [] => some []
  | v :: l =>
    match makeField u v {}, makeElems u l with
    | some b, some bs => some (b :: bs)
    | _, _ => none

/-- The fields of a struct. -/
def makeFields (u : Casing) : List GoFieldVal → Option (List Bytes)
  | [] => some []
  | .mk n tag v :: l =>
    if exported u n then
      match makeField u v (fieldParams tag), makeFields u l with
      | some b, some bs => some (b :: bs)
      | _, _ => none
    else none

end

/-- `asn1.Marshal` -/
def marshal (u : Casing) (v : GoVal) : Option Bytes := makeField u v {}

end Asn1go.Spec
