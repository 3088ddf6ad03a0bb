import Verif.Spec.Encodable
import Verif.Spec.Unmarshal

/-! For which types, values and encodings the generated Go types are decoded as they should. -/

namespace Asn1go.Spec

open Asn1go

/-! ### OPTIONAL components -/

/-- The Go type has a finite zero value, if the other types of the module are such. -/
inductive HasZero (l : List MAssignment) : MTy → Prop
  | boolean : HasZero l .boolean
  | integer (nums : List NamedNumber) : HasZero l (.integer nums)
  | enumerated (a b : List EnumerationItem) : HasZero l (.enumerated a b)
  | octetString : HasZero l .octetString
  | bitString (nb : List (NamedBit DefinedValue)) : HasZero l (.bitString nb)
  | objectIdentifier : HasZero l .objectIdentifier
  | string (k : Int) : HasZero l (.restrictedString k)
  | sequenceOf (t : MTy) : HasZero l (.sequenceOf t)
  | setOf (t : MTy) : HasZero l (.setOf t)
  | time : (∀ t, ¬ Assigned l (c! "GeneralizedTime") t) → HasZero l (.ref (c! "GeneralizedTime"))
  | ref (a : Str) (t : MTy) : Assigned l a t → HasZero l t → HasZero l (.ref a)
  | constrained (t : MTy) (c : Constraint DefinedValue (Value DefinedValue)) : HasZero l t → HasZero l (.constrained t c)
  | tagged (g : Tag DefinedValue) (t : MTy) (k : Int) (h : Bool) : HasZero l t → HasZero l (.tagged g t k h)
  | choice (n : Str) (t : MTy) (e : List MTy) : HasZero l t → HasZero l (.choice [.mk n t] e)
  | raw (alts : List MNamed) (e : List MTy) : SomeTagged l alts → HasZero l (.choice alts e)
  | sequence (a b : List MComponent) : (∀ x ∈ members (a ++ b), HasZero l x.type) → HasZero l (.sequence a b)
  | set (a b : List MComponent) : (∀ x ∈ members (a ++ b), HasZero l x.type) → HasZero l (.set a b)

/-- The OPTIONAL components inside the type, at any depth, have a zero value, which says that they are absent. -/
def OptionalsZero (l : List MAssignment) (t : MTy) : Prop :=
  ∀ a b, Inside l t (.sequence a b) ∨ Inside l t (.set a b) → ∀ x ∈ members (a ++ b), x.optional = true → HasZero l x.type

mutual

/-- `Blank l repr t x`: the only Go value for the value `x` of the type `t` is the zero value. -/
inductive Blank (l : List MAssignment) (repr : Str) : MTy → AsnVal → Prop
  | boolean : Blank l repr .boolean (.boolean false)
  | integer (nums : List NamedNumber) : repr = c! "int64" → Blank l repr (.integer nums) (.integer 0)
  | enumerated (a b : List EnumerationItem) : Blank l repr (.enumerated a b) (.enumerated 0)
  | string (k : Int) : Blank l repr (.restrictedString k) (.string [])
  | time : (∀ t, ¬ Assigned l (c! "GeneralizedTime") t) → Blank l repr (.ref (c! "GeneralizedTime")) (.time ⟨1, 1, 1, 0, 0, 0⟩)
  | ref (a : Str) (t : MTy) (x : AsnVal) : Assigned l a t → Blank l repr t x → Blank l repr (.ref a) x
  | constrained (t : MTy) (c : Constraint DefinedValue (Value DefinedValue)) (x : AsnVal) : Blank l repr t x → Blank l repr (.constrained t c) x
  | tagged (g : Tag DefinedValue) (t : MTy) (k : Int) (h : Bool) (x : AsnVal) : Blank l repr t x → Blank l repr (.tagged g t k h) x
  | choice (n : Str) (t : MTy) (e : List MTy) (x : AsnVal) : ¬ AltTagged l t → Blank l repr t x → Blank l repr (.choice [.mk n t] e) (.choice n x)
  | sequence (a b : List MComponent) (vs : List (Option AsnVal)) : BlankMembers l repr (members (a ++ b)) vs → Blank l repr (.sequence a b) (.record vs)
  | set (a b : List MComponent) (vs : List (Option AsnVal)) : BlankMembers l repr (members (a ++ b)) vs → Blank l repr (.set a b) (.record vs)

/-- Components that are absent, or whose only Go value is the zero value. -/
inductive BlankMembers (l : List MAssignment) (repr : Str) : List Member → List (Option AsnVal) → Prop
  | nil : BlankMembers l repr [] []
  | present (x : Member) (v : AsnVal) (xs : List Member) (vs : List (Option AsnVal)) : Blank l repr x.type v → BlankMembers l repr xs vs →
      BlankMembers l repr (x :: xs) (some v :: vs)
  | absent (x : Member) (xs : List Member) (vs : List (Option AsnVal)) : BlankMembers l repr xs vs → BlankMembers l repr (x :: xs) (none :: vs)

end

/-- `PartAt l t x t' y`: the value `x` of the type `t` has the part `y`, of the type `t'`. -/
inductive PartAt (l : List MAssignment) : MTy → AsnVal → MTy → AsnVal → Prop
  | here (t : MTy) (x : AsnVal) : PartAt l t x t x
  | ref (a : Str) (t t' : MTy) (x y : AsnVal) : Assigned l a t → PartAt l t x t' y → PartAt l (.ref a) x t' y
  | constrained (t t' : MTy) (c : Constraint DefinedValue (Value DefinedValue)) (x y : AsnVal) : PartAt l t x t' y → PartAt l (.constrained t c) x t' y
  | tagged (g : Tag DefinedValue) (t t' : MTy) (k : Int) (h : Bool) (x y : AsnVal) : PartAt l t x t' y → PartAt l (.tagged g t k h) x t' y
  | choice (alts : List MNamed) (e : List MTy) (n : Str) (t t' : MTy) (x y : AsnVal) : NamedType.mk n t ∈ alts → PartAt l t x t' y →
      PartAt l (.choice alts e) (.choice n x) t' y
  | sequence (a b : List MComponent) (vs : List (Option AsnVal)) (m : Member) (t' : MTy) (x y : AsnVal) : (m, some x) ∈ (members (a ++ b)).zip vs →
      PartAt l m.type x t' y → PartAt l (.sequence a b) (.record vs) t' y
  | set (a b : List MComponent) (vs : List (Option AsnVal)) (m : Member) (t' : MTy) (x y : AsnVal) : (m, some x) ∈ (members (a ++ b)).zip vs →
      PartAt l m.type x t' y → PartAt l (.set a b) (.record vs) t' y
  | sequenceOf (t t' : MTy) (vs : List AsnVal) (x y : AsnVal) : x ∈ vs → PartAt l t x t' y → PartAt l (.sequenceOf t) (.list vs) t' y
  | setOf (t t' : MTy) (vs : List AsnVal) (x y : AsnVal) : x ∈ vs → PartAt l t x t' y → PartAt l (.setOf t) (.list vs) t' y

/-- The alternatives of CHOICE types in a value, at any depth, have names of their own. -/
def ChoicesNamed (l : List MAssignment) (t : MTy) (x : AsnVal) : Prop :=
  ∀ alts e y, PartAt l t x (.choice alts e) y → ∀ n t1 t2, NamedType.mk n t1 ∈ alts → NamedType.mk n t2 ∈ alts → t1 = t2

/-- No OPTIONAL component that is present, at any depth, has a value whose only Go value is the zero value. -/
def OptionalsTold (l : List MAssignment) (repr : Str) (t : MTy) (x : AsnVal) : Prop :=
  ∀ a b vs, Seen l t x (.sequence a b) (.record vs) ∨ Seen l t x (.set a b) (.record vs) →
    ∀ m y, (m, some y) ∈ (members (a ++ b)).zip vs → m.optional = true → ¬ Blank l repr m.type y

/-! ### Components that can be absent -/

/-- The tags of elements that encoding/asn1 takes for a value of the type: its own, and for strings and times those of other
kinds; an `asn1.RawValue` takes all. -/
inductive Takes (l : List MAssignment) : MTy → AsnTag → Prop
  | boolean : Takes l .boolean ⟨0, 1⟩
  | integer (nums : List NamedNumber) : Takes l (.integer nums) ⟨0, 2⟩
  | enumerated (a b : List EnumerationItem) : Takes l (.enumerated a b) ⟨0, 10⟩
  | octetString : Takes l .octetString ⟨0, 4⟩
  | bitString (nb : List (NamedBit DefinedValue)) : Takes l (.bitString nb) ⟨0, 3⟩
  | objectIdentifier : Takes l .objectIdentifier ⟨0, 6⟩
  | string (k : Int) (n : Nat) : n = 19 ∨ n ∈ stringTags → Takes l (.restrictedString k) ⟨0, n⟩
  | time (n : Nat) : (∀ t, ¬ Assigned l (c! "GeneralizedTime") t) → n = 23 ∨ n = 24 → Takes l (.ref (c! "GeneralizedTime")) ⟨0, n⟩
  | ref (a : Str) (t : MTy) (g : AsnTag) : Assigned l a t → Takes l t g → Takes l (.ref a) g
  | constrained (t : MTy) (c : Constraint DefinedValue (Value DefinedValue)) (g : AsnTag) : Takes l t g → Takes l (.constrained t c) g
  | tagged (cls : Int) (n : Nat) (t : MTy) (k : Int) (h : Bool) : Takes l (.tagged ⟨cls, .number n⟩ t k h) ⟨classOf cls, n⟩
  | choice (alts : List MNamed) (e : List MTy) (n : Str) (t : MTy) (g : AsnTag) : NamedType.mk n t ∈ alts → Takes l t g → Takes l (.choice alts e) g
  | raw (alts : List MNamed) (e : List MTy) (g : AsnTag) : SomeTagged l alts → Takes l (.choice alts e) g
  | sequence (a b : List MComponent) : Takes l (.sequence a b) ⟨0, 16⟩
  | set (a b : List MComponent) : Takes l (.set a b) ⟨0, 17⟩
  | sequenceOf (t : MTy) : Takes l (.sequenceOf t) ⟨0, 16⟩
  | setOf (t : MTy) : Takes l (.setOf t) ⟨0, 17⟩

/-- The component can be without encoding. -/
def CanMiss (x : Member) : Prop := x.optional = true ∨ x.default ≠ none

/-- The type has an explicit tag. -/
def HasExplicit (deflt : Int) (t : MTy) : Prop := ∃ g ∈ tagsAround deflt t, g.2.2 = TAGS_EXPLICIT

/-- A component without encoding can be told from those that follow it, up to the next that must have one: encoding/asn1 does not
take their elements for it; and, if it has an explicit tag, no empty element is the only one that follows. -/
def Told (l : List MAssignment) (deflt : Int) : List Member → Prop
  | [] => True
  | x :: xs => (CanMiss x → ∀ pre y post, xs = pre ++ y :: post → (∀ z ∈ pre, CanMiss z) → ∀ v tag k c, Enc true l deflt y.type v tag k c →
      ¬ Takes l x.type tag ∧ (HasExplicit deflt x.type → c ≠ [] ∨ ∃ z ∈ post, ¬ CanMiss z)) ∧ Told l deflt xs

/-- The components can be read: tag numbers of at most 31 bits, no explicit tags of class PRIVATE, absent components can be told. -/
structure ReadableMembers (l : List MAssignment) (deflt : Int) (xs : List Member) : Prop where
  numbers : ∀ x ∈ xs, ∀ g ∈ tagsAround deflt x.type, ∀ n, g.2.1 = .number n → n ≤ 2147483647
  classes : ∀ x ∈ xs, ∀ g ∈ tagsAround deflt x.type, g.2.2 = TAGS_EXPLICIT → g.1 ≠ CLASS_PRIVATE
  told : Told l deflt xs

/-- The Go type is one that encoding/asn1 knows as that of elements of a slice: not `interface{}`. -/
inductive KnownElement (l : List MAssignment) : MTy → Prop
  | boolean : KnownElement l .boolean
  | integer (nums : List NamedNumber) : KnownElement l (.integer nums)
  | enumerated (a b : List EnumerationItem) : KnownElement l (.enumerated a b)
  | octetString : KnownElement l .octetString
  | bitString (nb : List (NamedBit DefinedValue)) : KnownElement l (.bitString nb)
  | objectIdentifier : KnownElement l .objectIdentifier
  | string (k : Int) : KnownElement l (.restrictedString k)
  | sequence (a b : List MComponent) : KnownElement l (.sequence a b)
  | sequenceOf (t : MTy) : KnownElement l (.sequenceOf t)
  | setOf (t : MTy) : KnownElement l (.setOf t)
  | ref (a : Str) (t : MTy) : Assigned l a t → KnownElement l t → KnownElement l (.ref a)
  | constrained (t : MTy) (c : Constraint DefinedValue (Value DefinedValue)) : KnownElement l t → KnownElement l (.constrained t c)
  | choice (n : Str) (t : MTy) (e : List MTy) : KnownElement l t → KnownElement l (.choice [.mk n t] e)
  | raw (alts : List MNamed) (e : List MTy) : SomeTagged l alts → KnownElement l (.choice alts e)

/-- So can the components inside the type, at any depth, and the elements are of types that are known. -/
structure Readable (l : List MAssignment) (deflt : Int) (t : MTy) : Prop where
  components : ∀ a b, Inside l t (.sequence a b) ∨ Inside l t (.set a b) → ReadableMembers l deflt (members (a ++ b))
  elements : ∀ t', Inside l t (.sequenceOf t') ∨ Inside l t (.setOf t') → KnownElement l t'

/-! ### Interfaces -/

/-- What encoding/asn1 reads into an interface from an element for the value of the type is of the Go type of the type. -/
inductive GivenBack (l : List MAssignment) (repr : Str) : MTy → AsnVal → Prop
  | integer (nums : List NamedNumber) (x : AsnVal) : repr = c! "int64" → GivenBack l repr (.integer nums) x
  | octetString (x : AsnVal) : GivenBack l repr .octetString x
  | bitString (nb : List (NamedBit DefinedValue)) (x : AsnVal) : GivenBack l repr (.bitString nb) x
  | objectIdentifier (x : AsnVal) : GivenBack l repr .objectIdentifier x
  | string (x : AsnVal) : GivenBack l repr (.restrictedString Tok.PrintableString) x
  | ref (a : Str) (t : MTy) (x : AsnVal) : Assigned l a t → GivenBack l repr t x → GivenBack l repr (.ref a) x
  | constrained (t : MTy) (c : Constraint DefinedValue (Value DefinedValue)) (x : AsnVal) : GivenBack l repr t x → GivenBack l repr (.constrained t c) x
  | only (n : Str) (t : MTy) (e : List MTy) (x : AsnVal) : ¬ AltTagged l t → GivenBack l repr t x → GivenBack l repr (.choice [.mk n t] e) (.choice n x)
  | several (alts : List MNamed) (e : List MTy) (n : Str) (x : AsnVal) : ¬ SomeTagged l alts → alts.length ≠ 1 →
      (∀ t, NamedType.mk n t ∈ alts → GivenBack l repr t x) → GivenBack l repr (.choice alts e) (.choice n x)

/-- In the value `x` of the type, no value held in an interface is tagged. -/
def InterfacesUntagged (l : List MAssignment) (t : MTy) (x : AsnVal) : Prop := ∀ g t' k h y, Seen l t x (.tagged g t' k h) y → ¬ InInterface l t'

/-- In the value `x` of the type, all values held in interfaces are given back. -/
def InterfacesBack (l : List MAssignment) (repr : Str) (t : MTy) (x : AsnVal) : Prop :=
  ∀ alts e n y, Seen l t x (.choice alts e) (.choice n y) → ¬ SomeTagged l alts → alts.length ≠ 1 → ∀ t', NamedType.mk n t' ∈ alts → GivenBack l repr t' y

/-- The CHOICE types held in interfaces can be read in the value `x` of the type. -/
structure InterfacesRead (l : List MAssignment) (repr : Str) (t : MTy) (x : AsnVal) : Prop where
  untagged : InterfacesUntagged l t x
  alternatives : InterfacesBack l repr t x

/-- A truth value, of whatever alternative. -/
def isTruth : AsnVal → Bool
  | .boolean _ => true
  | .choice _ x => isTruth x
  | _ => false

/-- In the value `x` of the type, no truth value is held in an interface: whether one is read depends on the version of encoding/asn1. -/
def NoTruthHeld (l : List MAssignment) (t : MTy) (x : AsnVal) : Prop :=
  ∀ alts e y, Seen l t x (.choice alts e) y → ¬ SomeTagged l alts → alts.length ≠ 1 → isTruth y = false

/-! ### Types of which nothing is read -/

/-- The Go type is not one that encoding/asn1 knows as that of elements of a slice: `float64` or `interface{}`. -/
inductive UnknownElement (l : List MAssignment) : MTy → Prop
  | real : UnknownElement l .real
  | several (alts : List MNamed) (e : List MTy) : ¬ SomeTagged l alts → alts.length ≠ 1 → UnknownElement l (.choice alts e)
  | only (n : Str) (t : MTy) (e : List MTy) : ¬ AltTagged l t → UnknownElement l t → UnknownElement l (.choice [.mk n t] e)
  | ref (a : Str) (t : MTy) : Assigned l a t → UnknownElement l t → UnknownElement l (.ref a)
  | constrained (t : MTy) (c : Constraint DefinedValue (Value DefinedValue)) : UnknownElement l t → UnknownElement l (.constrained t c)
  | tagged (g : Tag DefinedValue) (t : MTy) (k : Int) (h : Bool) : UnknownElement l t → UnknownElement l (.tagged g t k h)

/-- REAL, lists of elements that are not known, and what needs a value of such a type. -/
inductive NeverRead (l : List MAssignment) : MTy → Prop
  | real : NeverRead l .real
  | sequenceOf (t : MTy) : UnknownElement l t → NeverRead l (.sequenceOf t)
  | setOf (t : MTy) : UnknownElement l t → NeverRead l (.setOf t)
  | sequence (a b : List MComponent) (x : Member) : x ∈ members (a ++ b) → x.optional = false → x.default = none → NeverRead l x.type →
      NeverRead l (.sequence a b)
  | set (a b : List MComponent) (x : Member) : x ∈ members (a ++ b) → x.optional = false → x.default = none → NeverRead l x.type →
      NeverRead l (.set a b)
  | only (n : Str) (t : MTy) (e : List MTy) : ¬ AltTagged l t → NeverRead l t → NeverRead l (.choice [.mk n t] e)
  | ref (a : Str) (t : MTy) : Assigned l a t → NeverRead l t → NeverRead l (.ref a)
  | constrained (t : MTy) (c : Constraint DefinedValue (Value DefinedValue)) : NeverRead l t → NeverRead l (.constrained t c)
  | tagged (g : Tag DefinedValue) (t : MTy) (k : Int) (h : Bool) : NeverRead l t → NeverRead l (.tagged g t k h)

/-! ### Values that can be read -/

/-- The numbers of the value, but for those of its parts, fit what encoding/asn1 reads of them: 32 bits of enumerations, and 31 bits of
each subidentifier. -/
structure SmallHere (x : AsnVal) : Prop where
  enumerated : ∀ n, x = .enumerated n → -2147483648 ≤ n ∧ n ≤ 2147483647
  oid : ∀ o, x = .oid o → ∀ n ∈ o, n ≤ 2147483647
  arcs : ∀ a b r, x = .oid (a :: b :: r) → 40 * a + b ≤ 2147483647

/-- All numbers in the value of the type `t` do. -/
def ReadSmall (l : List MAssignment) (t : MTy) (x : AsnVal) : Prop := ∀ t' y, Seen l t x t' y → SmallHere y

/-- They also fit their Go types. -/
structure ReadFits (l : List MAssignment) (repr : Str) (t : MTy) (x : AsnVal) : Prop where
  small : ReadSmall l t x
  fits : Fits l repr t x

mutual

/-- `Same l t x y`: as values of the type `t`, `x` and `y` are the same: they differ in the order of elements of SET OF only. -/
inductive Same (l : List MAssignment) : MTy → AsnVal → AsnVal → Prop
  | refl (t : MTy) (x : AsnVal) : Same l t x x
  | ref (a : Str) (t : MTy) (x y : AsnVal) : Assigned l a t → Same l t x y → Same l (.ref a) x y
  | constrained (t : MTy) (c : Constraint DefinedValue (Value DefinedValue)) (x y : AsnVal) : Same l t x y → Same l (.constrained t c) x y
  | tagged (g : Tag DefinedValue) (t : MTy) (k : Int) (h : Bool) (x y : AsnVal) : Same l t x y → Same l (.tagged g t k h) x y
  | choice (alts : List MNamed) (e : List MTy) (n : Str) (t : MTy) (x y : AsnVal) : NamedType.mk n t ∈ alts → Same l t x y →
      Same l (.choice alts e) (.choice n x) (.choice n y)
  | sequence (a b : List MComponent) (xs ys : List (Option AsnVal)) : SameMembers l (members (a ++ b)) xs ys → Same l (.sequence a b) (.record xs) (.record ys)
  | set (a b : List MComponent) (xs ys : List (Option AsnVal)) : SameMembers l (members (a ++ b)) xs ys → Same l (.set a b) (.record xs) (.record ys)
  | sequenceOf (t : MTy) (xs ys : List AsnVal) : SameElems l t xs ys → Same l (.sequenceOf t) (.list xs) (.list ys)
  | setOf (t : MTy) (xs ys zs : List AsnVal) : SameElems l t xs ys → zs.Perm ys → Same l (.setOf t) (.list xs) (.list zs)

/-- Components. -/
inductive SameMembers (l : List MAssignment) : List Member → List (Option AsnVal) → List (Option AsnVal) → Prop
  | nil : SameMembers l [] [] []
  | present (m : Member) (x y : AsnVal) (ms : List Member) (xs ys : List (Option AsnVal)) : Same l m.type x y → SameMembers l ms xs ys →
      SameMembers l (m :: ms) (some x :: xs) (some y :: ys)
  | absent (m : Member) (ms : List Member) (xs ys : List (Option AsnVal)) : SameMembers l ms xs ys → SameMembers l (m :: ms) (none :: xs) (none :: ys)

/-- Elements. -/
inductive SameElems (l : List MAssignment) : MTy → List AsnVal → List AsnVal → Prop
  | nil (t : MTy) : SameElems l t [] []
  | cons (t : MTy) (x y : AsnVal) (xs ys : List AsnVal) : Same l t x y → SameElems l t xs ys → SameElems l t (x :: xs) (y :: ys)

end

end Asn1go.Spec
