import Verif.Spec.Calendar
import Verif.Spec.GoCheck
import Verif.Spec.GoValue

/-! Encodings of values of ASN.1 types, as in Rec. ITU-T X.690: the distinguished encoding rules (DER) if `strict`, else
encodings that obey the basic encoding rules (BER), of which the forms with definite and shortest lengths are described only.
Constraints are not looked at. -/

namespace Asn1go.Spec

open Asn1go

/-! ### Values -/

/-- A point in time, in UTC. -/
structure AsnTime where
  year : Nat
  month : Nat
  day : Nat
  hour : Nat
  minute : Nat
  second : Nat
  deriving DecidableEq, Repr

/-- Abstract values.  Components of a SEQUENCE or SET that are absent are `none`. -/
inductive AsnVal
  | boolean (b : Bool)
  | integer (n : Int)
  | enumerated (n : Int)
  | string (s : Str)
  | octets (b : Bytes)
  | bits (l : List Bool)
  | oid (l : List Nat)
  | time (t : AsnTime)
  | list (l : List AsnVal)
  | record (l : List (Option AsnVal))
  | choice (name : Str) (v : AsnVal)

/-! ### Octets -/

/-- The number written by octets, most significant first. -/
def octetsValue (l : Bytes) : Nat := l.foldl (fun a o => a * 256 + o.toNat) 0

/-- The number written by the low seven bits of octets, most significant first. -/
def septetsValue (l : Bytes) : Nat := l.foldl (fun a o => a * 128 + o.toNat % 128) 0

/-- 8.1.2.4.2, 8.19.2: seven bits per octet, the last octet and only it has a clear bit 8, the first octet is not 80. -/
structure Septets (n : Nat) (l : Bytes) : Prop where
  value : septetsValue l = n
  ends : ∃ i o, l = i ++ [o] ∧ o < 128 ∧ ∀ x ∈ i, 128 ≤ x
  shortest : l.head? ≠ some 128

/-- A tag: class (0 UNIVERSAL, 1 APPLICATION, 2 context-specific, 3 PRIVATE) and number. -/
structure AsnTag where
  cls : Nat
  number : Nat
  deriving DecidableEq, Repr

/-- 8.1.2: identifier octets. -/
def Identifier (t : AsnTag) (constructed : Bool) (l : Bytes) : Prop :=
  if t.number ≤ 30 then l = [UInt8.ofNat (64 * t.cls + (if constructed then 32 else 0) + t.number)]
  else ∃ s, l = UInt8.ofNat (64 * t.cls + (if constructed then 32 else 0) + 31) :: s ∧ Septets t.number s

/-- 8.1.3, 10.1: length octets, as few as possible. -/
def LengthOctets (n : Nat) (l : Bytes) : Prop :=
  if n ≤ 127 then l = [UInt8.ofNat n]
  else ∃ s, l = UInt8.ofNat (128 + s.length) :: s ∧ s.length < 127 ∧ octetsValue s = n ∧ s.head? ≠ some 0

/-- 8.1.1: identifier octets, length octets, contents octets. -/
def Encoding (t : AsnTag) (constructed : Bool) (contents l : Bytes) : Prop :=
  ∃ i n, Identifier t constructed i ∧ LengthOctets contents.length n ∧ l = i ++ n ++ contents

/-- The number written by octets in two's complement. -/
def signedValue : Bytes → Int
  | [] => 0
  | o :: l => octetsValue (o :: l) - if o ≥ 128 then 256 ^ (l.length + 1) else 0

/-- 8.3: contents of an INTEGER: two's complement, the first nine bits not all equal. -/
structure IntegerOctets (n : Int) (l : Bytes) : Prop where
  nonempty : l ≠ []
  value : signedValue l = n
  zeros : ∀ o r, l = 0 :: o :: r → 128 ≤ o
  ones : ∀ o r, l = 255 :: o :: r → o < 128

/-- The bits of an octet, bit 8 first. -/
def octetBits (o : UInt8) : List Bool := [7, 6, 5, 4, 3, 2, 1, 0].map fun k => o.toNat.testBit k

/-- 8.6, 11.2.1: contents of a BIT STRING: the number of unused bits, the bits, unused bits are zero. -/
def BitOctets (bits : List Bool) (l : Bytes) : Prop :=
  ∃ k s, l = UInt8.ofNat k :: s ∧ k < 8 ∧ s.flatMap octetBits = bits ++ List.replicate k false

/-- 8.19.2: subidentifiers. -/
inductive Subidentifiers : List Nat → Bytes → Prop
  | nil : Subidentifiers [] []
  | cons (n : Nat) (s : Bytes) (r : List Nat) (l : Bytes) : Septets n s → Subidentifiers r l → Subidentifiers (n :: r) (s ++ l)

/-- 8.19.4: contents of an OBJECT IDENTIFIER; the first two arcs are joined. -/
inductive OidOctets : List Nat → Bytes → Prop
  | mk (a b : Nat) (r : List Nat) (l : Bytes) : a ≤ 2 → (a < 2 → b < 40) → Subidentifiers ((40 * a + b) :: r) l → OidOctets (a :: b :: r) l

/-- The decimal digits of a number, `k` of them, as ASCII. -/
def asciiDigits : Nat → Nat → Bytes
  | 0, _ => []
  | k + 1, n => asciiDigits k (n / 10) ++ [UInt8.ofNat (48 + n % 10)]

/-- X.680 46, X.690 11.7: contents of a GeneralizedTime: YYYYMMDDhhmmssZ. -/
def timeOctets (t : AsnTime) : Bytes :=
  asciiDigits 4 t.year ++ asciiDigits 2 t.month ++ asciiDigits 2 t.day ++ asciiDigits 2 t.hour ++ asciiDigits 2 t.minute ++
    asciiDigits 2 t.second ++ [90]

/-- The time has a year of four digits, and a calendar date and a time of day. -/
structure AsnTime.Ok (t : AsnTime) : Prop where
  year : t.year ≤ 9999
  month : 1 ≤ t.month ∧ t.month ≤ 12
  day : 1 ≤ t.day ∧ t.day ≤ monthLength t.year t.month
  hour : t.hour ≤ 23
  minute : t.minute ≤ 59
  second : t.second ≤ 59

/-! ### Kinds of strings -/

/-- X.680 41.4: the characters of PrintableString. -/
def PrintableChars : List Char :=
  ("ABCDEFGHIJKLMNOPQRSTUVWXYZabcdefghijklmnopqrstuvwxyz0123456789 '()+,-./:=?").toList

/-- X.680 41.2: the characters of NumericString. -/
def NumericChars : List Char := "0123456789 ".toList

/-- `StringKind k tag chars octets`: the string type `k` has the universal tag `tag`, allows `chars`, and encodes strings as
`octets` (X.680 41, X.690 8.23). -/
inductive StringKind : Int → Nat → (Char → Prop) → (Char → Bytes) → Prop
  | ia5 : StringKind Tok.IA5String 22 (fun c => c.toNat < 128) fun c => [UInt8.ofNat c.toNat]
  | visible : StringKind Tok.VisibleString 26 (fun c => 32 ≤ c.toNat ∧ c.toNat < 127) fun c => [UInt8.ofNat c.toNat]
  | printable : StringKind Tok.PrintableString 19 (· ∈ PrintableChars) fun c => [UInt8.ofNat c.toNat]
  | numeric : StringKind Tok.NumericString 18 (· ∈ NumericChars) fun c => [UInt8.ofNat c.toNat]
  | utf8 : StringKind Tok.UTF8String 12 (fun _ => True) utf8Bytes

/-! ### Types -/

/-- The class of a tag, from the one the parser gives. -/
def classOf (c : Int) : Nat :=
  if c = CLASS_UNIVERSAL then 0 else if c = CLASS_APPLICATION then 1 else if c = CLASS_CONTEXT_SPECIFIC then 2 else 3

/-- X.680 31.2.7: the type is a CHOICE without tag, or an open type, and so cannot be tagged implicitly. -/
inductive NoImplicit (l : List MAssignment) : MTy → Prop
  | choice (alts : List MNamed) (e : List MTy) : NoImplicit l (.choice alts e)
  | any (x : Str) : NoImplicit l (.any x)
  | constrained (t : MTy) (x : Constraint DefinedValue (Value DefinedValue)) : NoImplicit l t → NoImplicit l (.constrained t x)
  | ref (a : Str) (t : MTy) : Assigned l a t → NoImplicit l t → NoImplicit l (.ref a)

/-- `DefaultIs l t d a`: the value `d` after DEFAULT in a component of type `t` is `a`. -/
inductive DefaultIs (l : List MAssignment) (t : MTy) : Value DefinedValue → AsnVal → Prop
  | number (n : Int) (nums : List NamedNumber) : TypeIs l t (.integer nums) → DefaultIs l t (.number n) (.integer n)
  | boolean (b : Bool) : TypeIs l t .boolean → DefaultIs l t (.boolean b) (.boolean b)
  | named (x : Str) (n : Int) (nums : List NamedNumber) : TypeIs l t (.integer nums) → ⟨x, .number n⟩ ∈ nums →
      DefaultIs l t (.identifiedInteger x) (.integer n)
  | defined (x : Str) (n : Int) (nums : List NamedNumber) : TypeIs l t (.integer nums) → ⟨x, .number n⟩ ∈ nums →
      DefaultIs l t (.defined ⟨[], x⟩) (.integer n)

/-- X.680 8.6: the canonical order of tags. -/
def AsnTag.lt (a b : AsnTag) : Prop := a.cls < b.cls ∨ (a.cls = b.cls ∧ a.number < b.number)

/-- 11.6: comparison of octets, the shorter ones padded with zeros. -/
def PaddedLe (a b : Bytes) : Prop :=
  octetsValue (a ++ List.replicate (b.length - a.length) 0) ≤ octetsValue (b ++ List.replicate (a.length - b.length) 0)

mutual

/-- `Enc strict l deflt t v tag constructed contents`: the value `v` of the type `t`, in a module with the assignments `l` and
the tag default `deflt`, has an encoding with this tag and these contents octets. -/
inductive Enc (strict : Bool) (l : List MAssignment) (deflt : Int) : MTy → AsnVal → AsnTag → Bool → Bytes → Prop
  | boolean (b : Bool) : Enc strict l deflt .boolean (.boolean b) ⟨0, 1⟩ false [if b then 255 else 0]
  | integer (nums : List NamedNumber) (n : Int) (c : Bytes) : IntegerOctets n c → Enc strict l deflt (.integer nums) (.integer n) ⟨0, 2⟩ false c
  | enumerated (a b : List EnumerationItem) (n : Int) (c : Bytes) : IntegerOctets n c →
      Enc strict l deflt (.enumerated a b) (.enumerated n) ⟨0, 10⟩ false c
  | octetString (b : Bytes) : Enc strict l deflt .octetString (.octets b) ⟨0, 4⟩ false b
  | bitString (nb : List (NamedBit DefinedValue)) (b : List Bool) (c : Bytes) : BitOctets b c → (nb ≠ [] → b.getLast? ≠ some false) →
      Enc strict l deflt (.bitString nb) (.bits b) ⟨0, 3⟩ false c
  | objectIdentifier (o : List Nat) (c : Bytes) : OidOctets o c → Enc strict l deflt .objectIdentifier (.oid o) ⟨0, 6⟩ false c
  | string (k : Int) (tag : Nat) (ok : Char → Prop) (enc : Char → Bytes) (s : Str) : StringKind k tag ok enc → (∀ c ∈ s, ok c) →
      Enc strict l deflt (.restrictedString k) (.string s) ⟨0, tag⟩ false (s.flatMap enc)
  | time (t : AsnTime) : (∀ t, ¬ Assigned l (c! "GeneralizedTime") t) → t.Ok →
      Enc strict l deflt (.ref (c! "GeneralizedTime")) (.time t) ⟨0, 24⟩ false (timeOctets t)
  | ref (a : Str) (t : MTy) (v : AsnVal) (tag : AsnTag) (k : Bool) (c : Bytes) : Assigned l a t → Enc strict l deflt t v tag k c →
      Enc strict l deflt (.ref a) v tag k c
  | constrained (t : MTy) (x : Constraint DefinedValue (Value DefinedValue)) (v : AsnVal) (tag : AsnTag) (k : Bool) (c : Bytes) :
      Enc strict l deflt t v tag k c → Enc strict l deflt (.constrained t x) v tag k c
  | explicit (cls : Int) (n : Nat) (t : MTy) (kind : Int) (h : Bool) (v : AsnVal) (tag : AsnTag) (k : Bool) (c e : Bytes) :
      (if h then kind else deflt) = TAGS_EXPLICIT ∨ NoImplicit l t → Enc strict l deflt t v tag k c → Encoding tag k c e →
      Enc strict l deflt (.tagged ⟨cls, .number n⟩ t kind h) v ⟨classOf cls, n⟩ true e
  | implicit (cls : Int) (n : Nat) (t : MTy) (kind : Int) (h : Bool) (v : AsnVal) (tag : AsnTag) (k : Bool) (c : Bytes) :
      (if h then kind else deflt) = TAGS_IMPLICIT → ¬ NoImplicit l t → Enc strict l deflt t v tag k c →
      Enc strict l deflt (.tagged ⟨cls, .number n⟩ t kind h) v ⟨classOf cls, n⟩ k c
  | choice (alts : List MNamed) (e : List MTy) (n : Str) (t : MTy) (v : AsnVal) (tag : AsnTag) (k : Bool) (c : Bytes) :
      NamedType.mk n t ∈ alts → Enc strict l deflt t v tag k c → Enc strict l deflt (.choice alts e) (.choice n v) tag k c
  | sequence (a b : List MComponent) (vs : List (Option AsnVal)) (es : List (AsnTag × Bytes)) : EncMembers strict l deflt (members (a ++ b)) vs es →
      Enc strict l deflt (.sequence a b) (.record vs) ⟨0, 16⟩ true (es.flatMap Prod.snd)
  | set (a b : List MComponent) (vs : List (Option AsnVal)) (es es' : List (AsnTag × Bytes)) : EncMembers strict l deflt (members (a ++ b)) vs es →
      es'.Perm es → (strict = true → es'.Pairwise fun x y => x.1.lt y.1) →
      Enc strict l deflt (.set a b) (.record vs) ⟨0, 17⟩ true (es'.flatMap Prod.snd)
  | sequenceOf (t : MTy) (vs : List AsnVal) (es : List Bytes) : EncElems strict l deflt t vs es →
      Enc strict l deflt (.sequenceOf t) (.list vs) ⟨0, 16⟩ true es.flatten
  | setOf (t : MTy) (vs : List AsnVal) (es es' : List Bytes) : EncElems strict l deflt t vs es → es'.Perm es →
      (strict = true → es'.Pairwise PaddedLe) → Enc strict l deflt (.setOf t) (.list vs) ⟨0, 17⟩ true es'.flatten

/-- The encodings of the components that are encoded, with their tags. -/
inductive EncMembers (strict : Bool) (l : List MAssignment) (deflt : Int) : List Member → List (Option AsnVal) → List (AsnTag × Bytes) → Prop
  | nil : EncMembers strict l deflt [] [] []
  | present (x : Member) (v : AsnVal) (tag : AsnTag) (k : Bool) (c e : Bytes) (xs : List Member) (vs : List (Option AsnVal)) (es : List (AsnTag × Bytes)) :
      Enc strict l deflt x.type v tag k c → Encoding tag k c e → (strict = true → ∀ d, x.default = some d → ¬ DefaultIs l x.type d v) →
      EncMembers strict l deflt xs vs es → EncMembers strict l deflt (x :: xs) (some v :: vs) ((tag, e) :: es)
  | absent (x : Member) (xs : List Member) (vs : List (Option AsnVal)) (es : List (AsnTag × Bytes)) : x.optional = true →
      EncMembers strict l deflt xs vs es → EncMembers strict l deflt (x :: xs) (none :: vs) es
  | default (x : Member) (v : AsnVal) (d : Value DefinedValue) (xs : List Member) (vs : List (Option AsnVal)) (es : List (AsnTag × Bytes)) :
      x.default = some d → DefaultIs l x.type d v → EncMembers strict l deflt xs vs es → EncMembers strict l deflt (x :: xs) (some v :: vs) es

/-- The encodings of elements. -/
inductive EncElems (strict : Bool) (l : List MAssignment) (deflt : Int) : MTy → List AsnVal → List Bytes → Prop
  | nil (t : MTy) : EncElems strict l deflt t [] []
  | cons (t : MTy) (v : AsnVal) (tag : AsnTag) (k : Bool) (c e : Bytes) (vs : List AsnVal) (es : List Bytes) : Enc strict l deflt t v tag k c →
      Encoding tag k c e → EncElems strict l deflt t vs es → EncElems strict l deflt t (v :: vs) (e :: es)

end

/-- `e` is an encoding of the value `v` of the type `t`. -/
def Encodes (strict : Bool) (l : List MAssignment) (deflt : Int) (t : MTy) (v : AsnVal) (e : Bytes) : Prop :=
  ∃ tag k c, Enc strict l deflt t v tag k c ∧ Encoding tag k c e

end Asn1go.Spec
