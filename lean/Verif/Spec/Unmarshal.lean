import Verif.Spec.Marshal
import Verif.Spec.Calendar

/-! How Go's package encoding/asn1 decodes values (`parseField`, `parseTagAndLength`, `parseSequenceOf` and their helpers in its
asn1.go), written from its source, independent of the generator.  Described are the types that the generator makes, but for
`float64`; of the texts of times those of the form YYYYMMDDhhmmssZ; of the kinds of strings
PrintableString, IA5String, NumericString and UTF8String; BOOLEAN is not described for interfaces, since versions differ.  Of what is not
described nothing is said to be read.  Errors are not told apart. -/

namespace Asn1go.Spec

open Asn1go

/-! ### Octets -/

/-- `parseBase128Int`, after `shifted` octets with the value `ret`: the number and what follows. -/
def parseBase128 : Nat → Nat → Bytes → Option (Nat × Bytes)
  | _, _, [] => none
  | shifted, ret, b :: l =>
    if shifted = 5 then none
    else if shifted = 0 ∧ b = 128 then none
    else if b < 128 then
      if ret * 128 + b.toNat % 128 > 2147483647 then none else some (ret * 128 + b.toNat % 128, l)
    else parseBase128 (shifted + 1) (ret * 128 + b.toNat % 128) l

/-- The loop over the octets of a length in the long form. -/
def parseLength : Nat → Nat → Bytes → Option (Nat × Bytes)
  | 0, n, l => some (n, l)
  | _ + 1, _, [] => none
  | k + 1, n, b :: l =>
    if n ≥ 8388608 then none
    else if n * 256 + b.toNat = 0 then none
    else parseLength k (n * 256 + b.toNat) l

/-- `tagAndLength` -/
structure Header where
  cls : Nat
  tag : Nat
  compound : Bool
  length : Nat
  deriving DecidableEq, Repr

/-- The tag number, from the first octet and those that follow it. -/
def parseTag (b : UInt8) (l : Bytes) : Option (Nat × Bytes) :=
  if b.toNat % 32 = 31 then
    match parseBase128 0 0 l with
    | some (n, l') => if n < 31 then none else some (n, l')
    | none => none
  else some (b.toNat % 32, l)

/-- `parseTagAndLength` -/
def parseHeader : Bytes → Option (Header × Bytes)
  | [] => none
  | b :: l =>
    match parseTag b l with
    | none => none
    | some (_, []) => none
    | some (n, c :: l') =>
      if c < 128 then some (⟨b.toNat / 64, n, b.toNat / 32 % 2 == 1, c.toNat⟩, l')
      else if c = 128 then none
      else
        match parseLength (c.toNat - 128) 0 l' with
        | none => none
        | some (k, l'') => if k < 128 then none else some (⟨b.toNat / 64, n, b.toNat / 32 % 2 == 1, k⟩, l'')

/-! ### Elements -/

/-- The tags of kinds of strings that are read into a Go string: UTF8String, NumericString, T61String, IA5String, GeneralString,
BMPString. -/
def stringTags : List Nat := [12, 18, 20, 22, 27, 30]

/-- The universal tag for a type with the universal tag `tag`, by parameters and what the octets have. -/
def wireTag (p : FieldParams) (tag : Nat) (h : Header) : Nat :=
  let t :=
    if tag = 19 then
      if h.cls = 0 then if h.tag ∈ stringTags then h.tag else 19
      else if p.stringType ≠ 0 then p.stringType else 19
    else if tag = 23 then
      if h.cls = 0 then if h.tag = 24 then 24 else 23
      else if p.timeType ≠ 0 then p.timeType else 23
    else tag
  if p.set then 17 else t

/-- What is at the start of the octets: an element of the type, with its universal tag, its contents and what follows; no such
element; or an error. -/
inductive Found
  | element (universalTag : Nat) (contents rest : Bytes)
  | missing
  | error
  deriving DecidableEq

/-- The second half of `parseField` before it looks at the type: compare tags and take the contents. -/
def findInner (p : FieldParams) (tag : Nat) (compound : Bool) (h : Header) (l : Bytes) : Found :=
  let ut := wireTag p tag h
  let expected : Nat × Int :=
    match p.tag with
    | some n => if p.explicit then (0, ut) else (if p.isPrivate then 3 else if p.application then 1 else 2, n)
    | none => (0, ut)
  if h.cls ≠ expected.1 ∨ (h.tag : Int) ≠ expected.2 ∨ h.compound ≠ compound then .missing
  else if l.length < h.length then .error
  else .element ut (l.take h.length) (l.drop h.length)

/-- `parseField` before it looks at the type; `tag` and `compound` are those of the type. -/
def findElement (p : FieldParams) (tag : Nat) (compound : Bool) (b : Bytes) : Found :=
  if b = [] then .missing
  else
    match parseHeader b with
    | none => .error
    | some (h, l) =>
      if p.explicit then
        if l = [] then .error
        else if h.cls = (if p.application then 1 else 2) ∧ p.tag = some (h.tag : Int) ∧ (h.length = 0 ∨ h.compound = true) then
          if h.length = 0 then .error
          else
            match parseHeader l with
            | none => .error
            | some (h', l') => findInner p tag compound h' l'
        else .missing
      else findInner p tag compound h l

/-- What is at the start of the octets for an `asn1.RawValue`: the header of an element with its contents and what follows; no such
element; or an error. -/
inductive FoundRaw
  | element (h : Header) (contents rest : Bytes)
  | missing
  | error
  deriving DecidableEq

/-- The contents are taken. -/
def takeRaw (h : Header) (l : Bytes) : FoundRaw :=
  if l.length < h.length then .error else .element h (l.take h.length) (l.drop h.length)

/-- `parseField` for an `asn1.RawValue`, which matches all classes and tags, be the encoding constructed or not, but for those that the
parameters demand; what is in an explicit tag is not parsed. -/
def findRaw (p : FieldParams) (b : Bytes) : FoundRaw :=
  if b = [] then .missing
  else
    match parseHeader b with
    | none => .error
    | some (h, l) =>
      if p.explicit then
        if l = [] then .error
        else if h.cls = (if p.application then 1 else 2) ∧ p.tag = some (h.tag : Int) ∧ (h.length = 0 ∨ h.compound = true) then takeRaw h l
        else .missing
      else
        match p.tag with
        | some n => if h.cls ≠ (if p.isPrivate then 3 else if p.application then 1 else 2) ∨ (h.tag : Int) ≠ n then .missing else takeRaw h l
        | none => takeRaw h l

/-! ### Contents -/

/-- `checkInteger` -/
def checkInteger : Bytes → Bool
  | [] => false
  | [_] => true
  | a :: b :: _ => !((a == 0 && b < 128) || (a == 255 && b ≥ 128))

/-- The octets as a number, most significant first. -/
def bigEndian (l : Bytes) : Nat := l.foldl (fun n b => n * 256 + b.toNat) 0

/-- `parseInt64`; the shifts extend the sign. -/
def readInt64 (l : Bytes) : Option Int :=
  if checkInteger l ∧ l.length ≤ 8 then
    some (if 2 * bigEndian l ≥ 256 ^ l.length then bigEndian l - 256 ^ l.length else bigEndian l)
  else none

/-- `parseInt32` -/
def readInt32 (l : Bytes) : Option Int :=
  match readInt64 l with
  | some n => if -2147483648 ≤ n ∧ n ≤ 2147483647 then some n else none
  | none => none

/-- `parseBigInt` -/
def readBig (l : Bytes) : Option Int :=
  if checkInteger l then
    match l with
    | [] => none
    | b :: _ => some (if b ≥ 128 then -(bigEndian (l.map fun x => x ^^^ 255) + 1 : Int) else bigEndian l)
  else none

/-- `parseBool` -/
def readBool : Bytes → Option Bool
  | [b] => if b = 0 then some false else if b = 255 then some true else none
  | _ => none

/-- `parseBitString` -/
def readBits : Bytes → Option (Bytes × Int)
  | [] => none
  | b :: l =>
    if b > 7 ∨ (l = [] ∧ b > 0) ∨ (∃ x, l.getLast? = some x ∧ x.toNat % 2 ^ b.toNat ≠ 0) then none
    else some (l, l.length * 8 - b.toNat)

/-- The loop of `parseObjectIdentifier`; the fuel is at least the number of octets. -/
def readArcs : Nat → Bytes → Option (List Int)
  | _, [] => some []
  | 0, _ => none
  | fuel + 1, l =>
    match parseBase128 0 0 l with
    | none => none
    | some (n, l') =>
      match readArcs fuel l' with
      | none => none
      | some r => some (n :: r)

/-- `parseObjectIdentifier` -/
def readOid (l : Bytes) : Option (List Int) :=
  match readArcs l.length l with
  | some (n :: r) => some (if n < 80 then n / 40 :: n % 40 :: r else 2 :: (n - 80) :: r)
  | _ => none

/-- A byte of a PrintableString: `isPrintable` with asterisk and ampersand. -/
def printableByte (b : UInt8) : Bool :=
  (97 ≤ b && b ≤ 122) || (65 ≤ b && b ≤ 90) || (48 ≤ b && b ≤ 57) || (39 ≤ b && b ≤ 41) || (43 ≤ b && b ≤ 47) || b == 32 || b == 58 ||
    b == 61 || b == 63 || b == 42 || b == 38

/-- `parsePrintableString`, `parseNumericString`, `parseIA5String`, `parseUTF8String`: the string `s` is read. -/
inductive ReadsString : Nat → Bytes → Str → Prop
  | printable (s : Str) : (∀ b ∈ stringBytes s, printableByte b = true) → ReadsString 19 (stringBytes s) s
  | numeric (s : Str) : (∀ b ∈ stringBytes s, (48 ≤ b ∧ b ≤ 57) ∨ b = 32) → ReadsString 18 (stringBytes s) s
  | ia5 (s : Str) : (∀ b ∈ stringBytes s, b < 128) → ReadsString 22 (stringBytes s) s
  | utf8 (s : Str) : ReadsString 12 (stringBytes s) s

/-- `parseGeneralizedTime` for texts of the form YYYYMMDDhhmmssZ: dates that are in the calendar. -/
inductive ReadsTime : Bytes → GoTime → Prop
  | mk (year : Nat) (month day hour minute second : Nat) : year ≤ 9999 → 1 ≤ month → month ≤ 12 → 1 ≤ day → day ≤ monthLength year month →
      hour ≤ 23 → minute ≤ 59 → second ≤ 59 →
      ReadsTime (twoDigits (year / 100) ++ twoDigits (year % 100) ++ twoDigits month ++ twoDigits day ++ twoDigits hour ++ twoDigits minute ++
        twoDigits second ++ [90]) ⟨year, month, day, hour, minute, second, 0⟩

/-! ### Types -/

/-- Types, without their names. -/
inductive GoKind
  | bool
  | int
  | float
  | string
  | bytes
  | big
  | bits
  | enum
  | oid
  | time
  | raw
  | iface
  | slice (e : GoExpr)
  | struct (fs : List GoField)

/-- encoding/asn1 knows the other types by themselves, and not types declared with them. -/
def GoKind.plain : GoKind → Prop
  | .bool | .int | .float | .string | .bytes | .slice _ | .struct _ => True
  | _ => False

/-- `Underlies f e n k`: in the file, the type `e` is of the kind `k` and has the name `n`, empty if it has none or one that is not
declared in the file. -/
inductive Underlies (f : GoFile) : GoExpr → Str → GoKind → Prop
  | bool : c! "bool" ∉ declared f.decls → Underlies f (.ident (c! "bool")) [] .bool
  | int64 : c! "int64" ∉ declared f.decls → Underlies f (.ident (c! "int64")) [] .int
  | float64 : c! "float64" ∉ declared f.decls → Underlies f (.ident (c! "float64")) [] .float
  | string : c! "string" ∉ declared f.decls → Underlies f (.ident (c! "string")) [] .string
  | bytes : c! "byte" ∉ declared f.decls → Underlies f (.array (.ident (c! "byte"))) [] .bytes
  | big : Underlies f (.star (.ident (c! "big.Int"))) [] .big
  | bits : Underlies f (.ident (c! "asn1.BitString")) [] .bits
  | enumerated : Underlies f (.ident (c! "asn1.Enumerated")) [] .enum
  | oid : Underlies f (.ident (c! "asn1.ObjectIdentifier")) [] .oid
  | time : Underlies f (.ident (c! "time.Time")) [] .time
  | raw : Underlies f (.ident (c! "asn1.RawValue")) [] .raw
  | iface : Underlies f .iface [] .iface
  | slice (e : GoExpr) : e ≠ .ident (c! "byte") → Underlies f (.array e) [] (.slice e)
  | struct (fs : List GoField) : Underlies f (.struct fs) [] (.struct fs)
  | alias (n m : Str) (e : GoExpr) (k : GoKind) : Declares f ⟨n, true, e⟩ → Underlies f e m k → Underlies f (.ident n) m k
  | defined (n m : Str) (e : GoExpr) (k : GoKind) : Declares f ⟨n, false, e⟩ → Underlies f e m k → k.plain → Underlies f (.ident n) n k

/-- `getUniversalType`: tag and whether the encoding is constructed. -/
def kindTag (name : Str) : GoKind → Option (Nat × Bool)
  | .bool => some (1, false)
  | .int => some (2, false)
  | .enum => some (10, false)
  | .big => some (2, false)
  | .string => some (19, false)
  | .bytes => some (4, false)
  | .bits => some (3, false)
  | .oid => some (6, false)
  | .time => some (23, false)
  | .slice _ => some (if c! "SET" <:+ name then 17 else 16, true)
  | .struct _ => some (16, true)
  | _ => none

mutual

/-- `Zero f n k v`: the zero value of a type of kind `k` with the name `n`. -/
inductive Zero (f : GoFile) : Str → GoKind → GoVal → Prop
  | bool (n : Str) : Zero f n .bool (.bool false)
  | int (n : Str) : Zero f n .int (.int 0)
  | string (n : Str) : Zero f n .string (.str [])
  | bytes (n : Str) : Zero f n .bytes (.bytes none)
  | big (n : Str) : Zero f n .big (.big none)
  | bits (n : Str) : Zero f n .bits (.bits none 0)
  | enum (n : Str) : Zero f n .enum (.enum 0)
  | oid (n : Str) : Zero f n .oid (.oid none)
  | time (n : Str) : Zero f n .time (.time zeroTime)
  | raw (n : Str) : Zero f n .raw (.raw 0 0 false none none)
  | iface (n : Str) : Zero f n .iface .nilIface
  | slice (n : Str) (e : GoExpr) : Zero f n (.slice e) (.slice n true [])
  | struct (n : Str) (fs : List GoField) (vs : List GoFieldVal) : ZeroFields f fs vs → Zero f n (.struct fs) (.struct vs)

/-- The zero values of fields. -/
inductive ZeroFields (f : GoFile) : List GoField → List GoFieldVal → Prop
  | nil : ZeroFields f [] []
  | cons (n : Str) (e : GoExpr) (tag : Option Str) (m : Str) (k : GoKind) (v : GoVal) (fs : List GoField) (vs : List GoFieldVal) :
      Underlies f e m k → Zero f m k v → ZeroFields f fs vs → ZeroFields f (.mk n e tag :: fs) (.mk n tag v :: vs)

end

/-- `setDefaultValue` for a value that may be left out, from its zero value. -/
def setDefault (p : FieldParams) : GoVal → GoVal
  | .int n => .int (p.dflt.getD n)
  | .enum n => .enum (p.dflt.getD n)
  | v => v

/-- The values that are not composed, read from contents with the universal tag. -/
inductive ReadsSimple : GoKind → Nat → Bytes → GoVal → Prop
  | bool (t : Nat) (c : Bytes) (b : Bool) : readBool c = some b → ReadsSimple .bool t c (.bool b)
  | int (t : Nat) (c : Bytes) (n : Int) : readInt64 c = some n → ReadsSimple .int t c (.int n)
  | enum (t : Nat) (c : Bytes) (n : Int) : readInt32 c = some n → ReadsSimple .enum t c (.enum n)
  | big (t : Nat) (c : Bytes) (n : Int) : readBig c = some n → ReadsSimple .big t c (.big (some n))
  | string (t : Nat) (c : Bytes) (s : Str) : ReadsString t c s → ReadsSimple .string t c (.str s)
  | bytes (t : Nat) (c : Bytes) : ReadsSimple .bytes t c (.bytes (some c))
  | bits (t : Nat) (c b : Bytes) (n : Int) : readBits c = some (b, n) → ReadsSimple .bits t c (.bits (some b) n)
  | oid (t : Nat) (c : Bytes) (o : List Int) : readOid c = some o → ReadsSimple .oid t c (.oid (some o))
  | time (c : Bytes) (x : GoTime) : ReadsTime c x → ReadsSimple .time 24 c (.time x)

/-- There is no element for a type of the kind at the start of the octets. -/
inductive Lacks (p : FieldParams) (name : Str) : GoKind → Bytes → Prop
  | tag (k : GoKind) (tag : Nat) (compound : Bool) (b : Bytes) : kindTag name k = some (tag, compound) → findElement p tag compound b = .missing →
      Lacks p name k b
  | raw (b : Bytes) : findRaw p b = .missing → Lacks p name .raw b
  | iface : Lacks p name .iface []

/-- The types of what is put into an interface, by universal tags: those `parseField` has for "the ANY type" and that are described here. -/
def anyKind : Nat → Option GoKind
  | 2 => some .int
  | 3 => some .bits
  | 4 => some .bytes
  | 6 => some .oid
  | 12 | 18 | 19 | 22 => some .string
  | 24 => some .time
  | _ => none

/-- The universal tags `parseField` may put something into an interface for: BOOLEAN, those of `anyKind`, T61String, UTCTime, BMPString. -/
def anyTags : List Nat := [1, 2, 3, 4, 6, 12, 18, 19, 20, 22, 23, 24, 30]

/-- What an interface holds after `parseField` has read an element with the header and the contents; it is left nil for elements of other
types. -/
inductive ReadsAny (h : Header) (c : Bytes) : GoVal → Prop
  | value (k : GoKind) (v : GoVal) : h.compound = false → h.cls = 0 → anyKind h.tag = some k → ReadsSimple k h.tag c v → ReadsAny h c (.iface v)
  | nothing : h.compound = true ∨ h.cls ≠ 0 ∨ h.tag ∉ anyTags → ReadsAny h c .nilIface

mutual

/-- `Decodes f u e p b v rest`: from the octets `b`, `parseField` reads the value `v` of the type `e` with the parameters `p`, and
`rest` is left. -/
inductive Decodes (f : GoFile) (u : Casing) : GoExpr → FieldParams → Bytes → GoVal → Bytes → Prop
  | missing (e : GoExpr) (p : FieldParams) (b : Bytes) (n : Str) (k : GoKind) (z : GoVal) : Underlies f e n k → Lacks p n k b → p.optional = true →
      Zero f n k z → Decodes f u e p b (setDefault p z) b
  | raw (e : GoExpr) (p : FieldParams) (b : Bytes) (n : Str) (h : Header) (c rest : Bytes) : Underlies f e n .raw → findRaw p b = .element h c rest →
      Decodes f u e p b (.raw h.cls h.tag h.compound (some c) (some (b.take (b.length - rest.length)))) rest
  | iface (e : GoExpr) (p : FieldParams) (b : Bytes) (n : Str) (h : Header) (l : Bytes) (v : GoVal) : Underlies f e n .iface → parseHeader b = some (h, l) →
      h.length ≤ l.length → ReadsAny h (l.take h.length) v → Decodes f u e p b v (l.drop h.length)
  | element (e : GoExpr) (p : FieldParams) (b : Bytes) (n : Str) (k : GoKind) (tag : Nat) (compound : Bool) (t : Nat) (c rest : Bytes) (v : GoVal) :
      Underlies f e n k → kindTag n k = some (tag, compound) → findElement p tag compound b = .element t c rest → ReadsBody f u n k t c v →
      Decodes f u e p b v rest

/-- The contents of a value; the elements of a slice are of a type that `getUniversalType` knows. -/
inductive ReadsBody (f : GoFile) (u : Casing) : Str → GoKind → Nat → Bytes → GoVal → Prop
  | simple (n : Str) (k : GoKind) (t : Nat) (c : Bytes) (v : GoVal) : ReadsSimple k t c v → ReadsBody f u n k t c v
  | struct (n : Str) (fs : List GoField) (t : Nat) (c rest : Bytes) (vs : List GoFieldVal) : ReadsFields f u fs c vs rest →
      ReadsBody f u n (.struct fs) t c (.struct vs)
  | slice (n : Str) (e : GoExpr) (t : Nat) (c : Bytes) (vs : List GoVal) (m : Str) (k : GoKind) : Underlies f e m k → k = .raw ∨ kindTag m k ≠ none →
      ReadsElems f u e c vs → ReadsBody f u n (.slice e) t c (.slice n false vs)

/-- The fields of a struct, from the start of the octets. -/
inductive ReadsFields (f : GoFile) (u : Casing) : List GoField → Bytes → List GoFieldVal → Bytes → Prop
  | nil (b : Bytes) : ReadsFields f u [] b [] b
  | cons (n : Str) (e : GoExpr) (tag : Option Str) (fs : List GoField) (b b' rest : Bytes) (v : GoVal) (vs : List GoFieldVal) : exported u n = true →
      Decodes f u e (fieldParams tag) b v b' → ReadsFields f u fs b' vs rest → ReadsFields f u (.mk n e tag :: fs) b (.mk n tag v :: vs) rest

/-- The elements of a slice, from all of the octets. -/
inductive ReadsElems (f : GoFile) (u : Casing) : GoExpr → Bytes → List GoVal → Prop
  | nil (e : GoExpr) : ReadsElems f u e [] []
  | cons (e : GoExpr) (b b' : Bytes) (v : GoVal) (vs : List GoVal) : b ≠ [] → Decodes f u e {} b v b' → ReadsElems f u e b' vs →
      ReadsElems f u e b (v :: vs)

end

/-- `Unmarshals f u e b v rest`: `asn1.Unmarshal` into a variable of the type `e` reads `v` from `b` and returns `rest`. -/
def Unmarshals (f : GoFile) (u : Casing) (e : GoExpr) (b : Bytes) (v : GoVal) (rest : Bytes) : Prop := Decodes f u e {} b v rest

end Asn1go.Spec
