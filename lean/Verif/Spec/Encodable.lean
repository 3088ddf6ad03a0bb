import Verif.Spec.Der
import Verif.Spec.Marshal

/-! Which abstract value a Go value stands for, and for which types the generated Go types are encoded as they should. -/

namespace Asn1go.Spec

open Asn1go

/-! ### Go values and abstract values -/

/-- The value converted to `interface{}`. -/
def GoVal.boxed : GoVal → GoVal
  | .nilIface => .nilIface
  | .iface v => .iface v
  | v => .iface v

/-- What Go values of types that can hold all kinds of values must hold. -/
structure Held where
  /-- The Go value put into an interface, for a value of the type. -/
  boxed : MTy → GoVal → Prop
  /-- Tag, kind and contents put into an `asn1.RawValue`, for a value of the type. -/
  raw : MTy → AsnVal → AsnTag → Bool → Bytes → Prop

mutual

/-- `Means l B t v a`: as a value of the type `t`, in a module with the assignments `l`, the Go value `v` stands for `a`.
What is put into an interface or an `asn1.RawValue` for a CHOICE must be as `B` demands. -/
inductive Means (l : List MAssignment) (B : Held) : MTy → GoVal → AsnVal → Prop
  | boolean (b : Bool) : Means l B .boolean (.bool b) (.boolean b)
  | integer (nums : List NamedNumber) (n : Int) : Means l B (.integer nums) (.int n) (.integer n)
  | bigInteger (nums : List NamedNumber) (n : Int) : Means l B (.integer nums) (.big (some n)) (.integer n)
  | enumerated (a b : List EnumerationItem) (n : Int) : Means l B (.enumerated a b) (.enum n) (.enumerated n)
  | octetString (b : Option Bytes) : Means l B .octetString (.bytes b) (.octets (b.getD []))
  | bitString (nb : List (NamedBit DefinedValue)) (b : Option Bytes) (bits : List Bool) (k : Nat) : k < 8 →
      (b.getD []).flatMap octetBits = bits ++ List.replicate k false → (nb ≠ [] → bits.getLast? ≠ some false) →
      Means l B (.bitString nb) (.bits b bits.length) (.bits bits)
  | objectIdentifier (a b : Nat) (r : List Nat) : a ≤ 2 → (a < 2 → b < 40) → GoInt (40 * a + b) →
      Means l B .objectIdentifier (.oid (some ((a :: b :: r).map Int.ofNat))) (.oid (a :: b :: r))
  | string (k : Int) (tag : Nat) (ok : Char → Prop) (enc : Char → Bytes) (s : Str) : StringKind k tag ok enc → (∀ c ∈ s, ok c) →
      Means l B (.restrictedString k) (.str s) (.string s)
  | time (t : AsnTime) : (∀ t, ¬ Assigned l (c! "GeneralizedTime") t) → t.Ok →
      Means l B (.ref (c! "GeneralizedTime")) (.time ⟨t.year, t.month, t.day, t.hour, t.minute, t.second, 0⟩) (.time t)
  | ref (a : Str) (t : MTy) (v : GoVal) (x : AsnVal) : Assigned l a t → Means l B t v x → Means l B (.ref a) v x
  | constrained (t : MTy) (c : Constraint DefinedValue (Value DefinedValue)) (v : GoVal) (x : AsnVal) : Means l B t v x → Means l B (.constrained t c) v x
  | tagged (g : Tag DefinedValue) (t : MTy) (k : Int) (h : Bool) (v : GoVal) (x : AsnVal) : Means l B t v x → Means l B (.tagged g t k h) v x
  | choice (n : Str) (t : MTy) (e : List MTy) (v : GoVal) (x : AsnVal) : ¬ AltTagged l t → Means l B t v x →
      Means l B (.choice [.mk n t] e) v (.choice n x)
  | alternative (alts : List MNamed) (e : List MTy) (n : Str) (t : MTy) (v w : GoVal) (x : AsnVal) : ¬ SomeTagged l alts → alts.length ≠ 1 →
      NamedType.mk n t ∈ alts → B.boxed t v → w = v.boxed → Means l B t v x → Means l B (.choice alts e) w (.choice n x)
  | raw (alts : List MNamed) (e : List MTy) (cls tag : Nat) (k : Bool) (b full : Option Bytes) (x : AsnVal) : SomeTagged l alts →
      B.raw (.choice alts e) x ⟨cls, tag⟩ k (b.getD []) → (full.getD [] ≠ [] → Encoding ⟨cls, tag⟩ k (b.getD []) (full.getD [])) →
      Means l B (.choice alts e) (.raw cls tag k b full) x
  | sequence (a b : List MComponent) (fs : List GoFieldVal) (vs : List (Option AsnVal)) : MeansMembers l B (members (a ++ b)) fs vs →
      Means l B (.sequence a b) (.struct fs) (.record vs)
  | set (a b : List MComponent) (fs : List GoFieldVal) (vs : List (Option AsnVal)) : MeansMembers l B (members (a ++ b)) fs vs →
      Means l B (.set a b) (.struct fs) (.record vs)
  | sequenceOf (t : MTy) (n : Str) (z : Bool) (l' : List GoVal) (vs : List AsnVal) : MeansElems l B t l' vs →
      Means l B (.sequenceOf t) (.slice n z l') (.list vs)
  | setOf (t : MTy) (n : Str) (z : Bool) (l' : List GoVal) (vs : List AsnVal) : MeansElems l B t l' vs →
      Means l B (.setOf t) (.slice n z l') (.list vs)

/-- The fields of a struct for the components; a zero value for an OPTIONAL component says that it is absent. -/
inductive MeansMembers (l : List MAssignment) (B : Held) : List Member → List GoFieldVal → List (Option AsnVal) → Prop
  | nil : MeansMembers l B [] [] []
  | present (x : Member) (xs : List Member) (n : Str) (tag : Option Str) (v : GoVal) (fs : List GoFieldVal) (a : AsnVal) (vs : List (Option AsnVal)) :
      (x.optional = true → v.isZero = false) → Means l B x.type v a → MeansMembers l B xs fs vs →
      MeansMembers l B (x :: xs) (.mk n tag v :: fs) (some a :: vs)
  | absent (x : Member) (xs : List Member) (n : Str) (tag : Option Str) (v : GoVal) (fs : List GoFieldVal) (vs : List (Option AsnVal)) :
      x.optional = true → v.isZero = true → MeansMembers l B xs fs vs → MeansMembers l B (x :: xs) (.mk n tag v :: fs) (none :: vs)

/-- The elements of a slice. -/
inductive MeansElems (l : List MAssignment) (B : Held) : MTy → List GoVal → List AsnVal → Prop
  | nil (t : MTy) : MeansElems l B t [] []
  | cons (t : MTy) (v : GoVal) (l' : List GoVal) (a : AsnVal) (vs : List AsnVal) : Means l B t v a → MeansElems l B t l' vs →
      MeansElems l B t (v :: l') (a :: vs)

end

/-- The value is of the Go type of `t`. -/
def HasGoType (u : Casing) (l : List MAssignment) (deflt : Int) (repr : Str) (f : GoFile) (t : MTy) (v : GoVal) : Prop :=
  ∃ e, GoTypeOf u l deflt repr t e ∧ Typed f e v

/-- Values in interfaces are of the Go types of the alternatives; an `asn1.RawValue` holds an encoding, in DER if `strict`. -/
def held (strict : Bool) (u : Casing) (l : List MAssignment) (deflt : Int) (repr : Str) (f : GoFile) : Held :=
  ⟨HasGoType u l deflt repr f, Enc strict l deflt⟩

/-- The Go value `v` of a type of the file `f` stands for `x`. -/
abbrev Stands (strict : Bool) (u : Casing) (l : List MAssignment) (deflt : Int) (repr : Str) (f : GoFile) (t : MTy) (v : GoVal) (x : AsnVal) : Prop :=
  Means l (held strict u l deflt repr f) t v x

/-! ### Types that are encoded as they should -/

/-- Where a type stands: as element of SEQUENCE OF or SET OF or as alternative of CHOICE, as type of an assignment, or as type
of a component without its tag. -/
inductive Position
  | element
  | assignment
  | component
  deriving DecidableEq

/-- The type without its constraints. -/
def unconstrained : MTy → MTy
  | .constrained t _ => unconstrained t
  | t => t

/-- GeneralizedTime, perhaps under other names, without tags. -/
inductive TimeRef (l : List MAssignment) : Str → Prop
  | here : (∀ t, ¬ Assigned l (c! "GeneralizedTime") t) → TimeRef l (c! "GeneralizedTime")
  | ref (a b : Str) (t : MTy) : Assigned l a t → unconstrained t = .ref b → TimeRef l b → TimeRef l a

/-- The default value of a component is a number, or what the zero value of its Go type stands for.  For DER, integers must be
`int64`. -/
def DefaultOk (strict : Bool) (l : List MAssignment) (repr : Str) (x : Member) : Prop :=
  ∀ d, x.default = some d → x.optional = false ∧
    ∃ a, DefaultIs l x.type d a ∧ (∀ b, DefaultIs l x.type d b → b = a) ∧
      ((∃ n, d = .number n ∧ GoInt n) ∨ a = .boolean false ∨ (a = .integer 0 ∧ ∀ n, d ≠ .number n)) ∧
      (strict = true → repr = c! "int64" ∨ a = .boolean false)

/-- The components are in the canonical order of their tags. -/
def TagOrder (strict : Bool) (l : List MAssignment) (deflt : Int) (xs : List Member) : Prop :=
  xs.Pairwise fun x y => ∀ v tag k c v' tag' k' c', Enc strict l deflt x.type v tag k c → Enc strict l deflt y.type v' tag' k' c' → tag.lt tag'

/-- The string types that can be told to encoding/asn1. -/
def fieldStrings : List Int := [Tok.PrintableString, Tok.IA5String, Tok.UTF8String, Tok.NumericString]

/-- The Go type is `interface{}`. -/
inductive InInterface (l : List MAssignment) : MTy → Prop
  | several (alts : List MNamed) (e : List MTy) : ¬ SomeTagged l alts → alts.length ≠ 1 → InInterface l (.choice alts e)
  | only (n : Str) (t : MTy) (e : List MTy) : ¬ AltTagged l t → InInterface l t → InInterface l (.choice [.mk n t] e)
  | ref (a : Str) (t : MTy) : Assigned l a t → InInterface l t → InInterface l (.ref a)
  | constrained (t : MTy) (x : Constraint DefinedValue (Value DefinedValue)) : InInterface l t → InInterface l (.constrained t x)
  | tagged (g : Tag DefinedValue) (t : MTy) (k : Int) (h : Bool) : InInterface l t → InInterface l (.tagged g t k h)

/-- Values, or some of them, are held in an `asn1.RawValue`. -/
inductive InRaw (l : List MAssignment) : MTy → Prop
  | raw (alts : List MNamed) (e : List MTy) : SomeTagged l alts → InRaw l (.choice alts e)
  | alternative (alts : List MNamed) (e : List MTy) (n : Str) (t : MTy) : NamedType.mk n t ∈ alts → InRaw l t → InRaw l (.choice alts e)
  | ref (a : Str) (t : MTy) : Assigned l a t → InRaw l t → InRaw l (.ref a)
  | constrained (t : MTy) (x : Constraint DefinedValue (Value DefinedValue)) : InRaw l t → InRaw l (.constrained t x)

/-- Which CHOICE types may be held in interfaces and in `asn1.RawValue`s: none, if not allowed; if `small`, those with tag numbers of
at most 31 bits only in `asn1.RawValue`s. -/
structure Open where
  iface : Bool
  raw : Bool
  small : Bool

/-- Neither. -/
def Open.none : Open := ⟨false, false, false⟩

/-- Interfaces only. -/
def Open.ifaces : Open := ⟨true, false, false⟩

/-- `asn1.RawValue`s only, with small tag numbers. -/
def Open.raws : Open := ⟨false, true, true⟩

/-- No `asn1.RawValue`s with large tag numbers. -/
def Open.Limited (op : Open) : Prop := op.raw = true → op.small = true

/-- No SEQUENCE or SET type is part of the type. -/
def NoStruct (l : List MAssignment) (t : MTy) : Prop := ∀ a b, ¬ Inside l t (.sequence a b) ∧ ¬ Inside l t (.set a b)

/-- Alternatives with the same name are of the same type. -/
def DifferentNames (alts : List MNamed) : Prop := ∀ n t t', NamedType.mk n t ∈ alts → NamedType.mk n t' ∈ alts → t = t'

mutual

/-- The type is encoded as it should, in this position, if the assigned types `s` that are referred to are.  Not so are: tagged
types and SET types other than of components, strings other than PrintableString and GeneralizedTime other than of components,
SET OF as element.  Values may be held in interfaces and in `asn1.RawValue`s if `op` allows. -/
def EncOk (strict : Bool) (op : Open) (l : List MAssignment) (deflt : Int) (repr : Str) (s : Str → Prop) (pos : Position) : MTy → Prop
  | .boolean => True
  | .integer _ => True
  | .enumerated _ _ => True
  | .octetString => True
  | .bitString _ => True
  | .objectIdentifier => True
  | .restrictedString k => k = Tok.PrintableString ∨ (pos = .component ∧ k ∈ fieldStrings)
  | .sequence a b => EncOkMembers strict op l deflt repr s a ∧ EncOkMembers strict op l deflt repr s b
  | .set a b => pos = .component ∧ EncOkMembers strict op l deflt repr s a ∧ EncOkMembers strict op l deflt repr s b ∧
      (strict = true → TagOrder strict l deflt (members (a ++ b)))
  | .sequenceOf t => EncOk strict op l deflt repr s .element t
  | .setOf t => pos ≠ .element ∧ EncOk strict op l deflt repr s .element t
  | .constrained t _ => EncOk strict op l deflt repr s pos t
  | .ref a => s a ∨ (pos = .component ∧ TimeRef l a)
  | .choice alts e => (op.raw = true ∧ SomeTagged l alts ∧
      (op.small = true → ∀ x tag k c, Enc false l deflt (.choice alts e) x tag k c → tag.number ≤ 2147483647)) ∨ EncOkOnly strict op l deflt repr s alts
  | _ => False

/-- The alternatives of a CHOICE: a single one, or, if interfaces are allowed, several ones without SEQUENCE or SET types. -/
def EncOkOnly (strict : Bool) (op : Open) (l : List MAssignment) (deflt : Int) (repr : Str) (s : Str → Prop) : List MNamed → Prop
  | [] => False
  | [.mk _ t] => EncOk strict op l deflt repr s .element t
  | .mk n t :: y :: r => op.iface = true ∧ DifferentNames (.mk n t :: y :: r) ∧ (repr = c! "int64" ∨ repr = c! "big.Int") ∧ NoStruct l t ∧ EncOk strict op l deflt repr s .element t ∧
      EncOkEach strict op l deflt repr s (y :: r)

/-- Alternatives of a CHOICE held in an interface. -/
def EncOkEach (strict : Bool) (op : Open) (l : List MAssignment) (deflt : Int) (repr : Str) (s : Str → Prop) : List MNamed → Prop
  | [] => True
  | .mk _ t :: r => NoStruct l t ∧ EncOk strict op l deflt repr s .element t ∧ EncOkEach strict op l deflt repr s r

/-- The type of a component: at most one tag, not of class UNIVERSAL, with a number that fits a Go `int`, not an IMPLICIT one of
a CHOICE, and none of a CHOICE held in an `asn1.RawValue`. -/
def EncOkTagged (strict : Bool) (op : Open) (l : List MAssignment) (deflt : Int) (repr : Str) (s : Str → Prop) : MTy → Prop
  | .tagged g t k h => g.cls ∈ [CLASS_CONTEXT_SPECIFIC, CLASS_APPLICATION, CLASS_PRIVATE] ∧ (∃ n : Nat, g.classNumber = .number n ∧ GoInt n) ∧
      ((if h then k else deflt) = TAGS_EXPLICIT ∨ ((if h then k else deflt) = TAGS_IMPLICIT ∧ ¬ NoImplicit l t)) ∧
      ¬ InRaw l t ∧ EncOk strict op l deflt repr s .component t
  | .constrained t _ => EncOkTagged strict op l deflt repr s t
  | t => EncOk strict op l deflt repr s .component t

/-- The components of a type: OPTIONAL ones are not held in an interface. -/
def EncOkMembers (strict : Bool) (op : Open) (l : List MAssignment) (deflt : Int) (repr : Str) (s : Str → Prop) : List MComponent → Prop
  | [] => True
  | .named (.mk n t) o d :: r => EncOkTagged strict op l deflt repr s t ∧ DefaultOk strict l repr ⟨n, t, o, d⟩ ∧
      (op.iface = true → o = true → ¬ InInterface l t) ∧ EncOkMembers strict op l deflt repr s r
  | _ :: r => EncOkMembers strict op l deflt repr s r

end

/-- The assigned type `a` is encoded as it should, and so are the types it refers to. -/
def Encodable (strict : Bool) (op : Open) (l : List MAssignment) (deflt : Int) (repr : Str) (a : Str) : Prop :=
  ∃ s : Str → Prop, s a ∧ ∀ b, s b → ∃ t, Assigned l b t ∧ EncOk strict op l deflt repr s .assignment t

/-! ### Values that can be written -/

/-- `Seen l t x t' y`: in the Go value, the value `x` of the type `t` has the part `y`, of the type `t'`; what is held in an
`asn1.RawValue` has no parts. -/
inductive Seen (l : List MAssignment) : MTy → AsnVal → MTy → AsnVal → Prop
  | here (t : MTy) (x : AsnVal) : Seen l t x t x
  | ref (a : Str) (t t' : MTy) (x y : AsnVal) : Assigned l a t → Seen l t x t' y → Seen l (.ref a) x t' y
  | constrained (t t' : MTy) (c : Constraint DefinedValue (Value DefinedValue)) (x y : AsnVal) : Seen l t x t' y → Seen l (.constrained t c) x t' y
  | tagged (g : Tag DefinedValue) (t t' : MTy) (k : Int) (h : Bool) (x y : AsnVal) : Seen l t x t' y → Seen l (.tagged g t k h) x t' y
  | choice (alts : List MNamed) (e : List MTy) (n : Str) (t t' : MTy) (x y : AsnVal) : ¬ SomeTagged l alts → NamedType.mk n t ∈ alts → Seen l t x t' y →
      Seen l (.choice alts e) (.choice n x) t' y
  | sequence (a b : List MComponent) (vs : List (Option AsnVal)) (m : Member) (t' : MTy) (x y : AsnVal) : (m, some x) ∈ (members (a ++ b)).zip vs →
      Seen l m.type x t' y → Seen l (.sequence a b) (.record vs) t' y
  | set (a b : List MComponent) (vs : List (Option AsnVal)) (m : Member) (t' : MTy) (x y : AsnVal) : (m, some x) ∈ (members (a ++ b)).zip vs →
      Seen l m.type x t' y → Seen l (.set a b) (.record vs) t' y
  | sequenceOf (t t' : MTy) (vs : List AsnVal) (x y : AsnVal) : x ∈ vs → Seen l t x t' y → Seen l (.sequenceOf t) (.list vs) t' y
  | setOf (t t' : MTy) (vs : List AsnVal) (x y : AsnVal) : x ∈ vs → Seen l t x t' y → Seen l (.setOf t) (.list vs) t' y

/-- The numbers of the value, but for those of its parts, fit their Go types. -/
structure FitsHere (repr : Str) (x : AsnVal) : Prop where
  integer : ∀ n, x = .integer n → repr = c! "int64" → GoInt n
  enumerated : ∀ n, x = .enumerated n → GoInt n
  bits : ∀ b, x = .bits b → GoInt b.length
  oid : ∀ o, x = .oid o → ∀ n ∈ o, GoInt n
  arcs : ∀ a b r, x = .oid (a :: b :: r) → GoInt (40 * a + b)

/-- All numbers in the value of the type `t` fit their Go types. -/
def Fits (l : List MAssignment) (repr : Str) (t : MTy) (x : AsnVal) : Prop := ∀ t' y, Seen l t x t' y → FitsHere repr y

/-- The Go type has a value, nil, that stands for no abstract value. -/
def HasNil (l : List MAssignment) (repr : Str) (t : MTy) : Prop :=
  TypeIs l t .octetString ∨ (∃ nb, TypeIs l t (.bitString nb)) ∨ TypeIs l t .objectIdentifier ∨ (∃ t', TypeIs l t (.sequenceOf t')) ∨
    (∃ t', TypeIs l t (.setOf t')) ∨ (repr = c! "big.Int" ∧ ∃ nums, TypeIs l t (.integer nums)) ∨
    ∃ alts e, TypeIs l t (.choice alts e) ∧ SomeTagged l alts

/-- The OPTIONAL components inside the type, at any depth, have Go types with nil. -/
def OptionalsNil (l : List MAssignment) (repr : Str) (t : MTy) : Prop :=
  ∀ a b, Inside l t (.sequence a b) ∨ Inside l t (.set a b) → ∀ x ∈ members (a ++ b), x.optional = true → HasNil l repr x.type

end Asn1go.Spec
