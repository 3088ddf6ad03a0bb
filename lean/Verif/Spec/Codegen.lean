import Verif.Model.Codegen
import Verif.Spec.StructTag

/-! Declarative notions for the code generator: aliases, the type a reference leads to, which modules can be
translated.  From the model only the data types are used. -/

namespace Asn1go.Spec

open Asn1go

/-- `Core t c`: `c` is `t` without the tags and constraints around it. -/
inductive Core : MTy → MTy → Prop
  | tagged (g : Tag DefinedValue) (t c : MTy) (k : Int) (h : Bool) : Core t c → Core (.tagged g t k h) c
  | constrained (t c : MTy) (x : Constraint DefinedValue (Value DefinedValue)) : Core t c → Core (.constrained t x) c
  | done (t : MTy) : (∀ g t' k h, t ≠ .tagged g t' k h) → (∀ t' x, t ≠ .constrained t' x) → Core t t

/-- `Assigned l a t`: the first assignment in `l` that defines `a` is the type assignment `a ::= t`. -/
def Assigned (l : List MAssignment) (a : Str) (t : MTy) : Prop := l.find? (fun x => x.name == a) = some (.type a t)

/-- `Alias l a b`: `a` is assigned the type `b`, possibly with tags and constraints. -/
def Alias (l : List MAssignment) (a b : Str) : Prop := ∃ t, Assigned l a t ∧ Core t (.ref b)

/-- `Leaf l a b t`: following aliases from `a` ends with `b`, assigned the type `t` that is not a reference;
`t` is `.nil` if `b` is not assigned. -/
inductive Leaf (l : List MAssignment) : Str → Str → MTy → Prop
  | alias (a b r : Str) (t : MTy) : Alias l a b → Leaf l b r t → Leaf l a r t
  | assigned (a : Str) (t c : MTy) : Assigned l a t → Core t c → (∀ b, c ≠ .ref b) → Leaf l a a t
  | unassigned (a : Str) : (∀ t, ¬ Assigned l a t) → Leaf l a a .nil

/-- `a` is an alias of itself, over one or more steps. -/
inductive Reaches (l : List MAssignment) : Str → Str → Prop
  | one (a b : Str) : Alias l a b → Reaches l a b
  | step (a b c : Str) : Alias l a b → Reaches l b c → Reaches l a c

/-- No type is an alias of itself. -/
def Acyclic (l : List MAssignment) : Prop := ∀ a, ¬ Reaches l a a

/-- `Resolves l a b t`: the reference `a` leads to the type `t`, known as `b`: assigned in the module, or the
useful type GeneralizedTime. -/
inductive Resolves (l : List MAssignment) : Str → Str → MTy → Prop
  | assigned (a b : Str) (t : MTy) : Leaf l a b t → t ≠ .nil → Resolves l a b t
  | generalizedTime (a : Str) : Leaf l a (c! "GeneralizedTime") .nil →
      Resolves l a (c! "GeneralizedTime") (.tagged ⟨CLASS_UNIVERSAL, .number 24⟩ (.restrictedString Tok.VisibleString) 0 false)

/-- The name of a time type. -/
def TimeName (a : Str) : Prop := a = c! "GeneralizedTime" ∨ a = c! "UTCTime"

/-- `AltTagged l t`: an alternative of type `t` is (an alias of) a tagged type. -/
inductive AltTagged (l : List MAssignment) : MTy → Prop
  | tagged (g : Tag DefinedValue) (t : MTy) (k : Int) (h : Bool) : AltTagged l (.tagged g t k h)
  | constrained (t : MTy) (x : Constraint DefinedValue (Value DefinedValue)) : AltTagged l t → AltTagged l (.constrained t x)
  | ref (a b : Str) (t : MTy) : ¬ TimeName a → Resolves l a b t → AltTagged l t → AltTagged l (.ref a)

/-- `AltOk l t`: deciding whether an alternative of type `t` is tagged meets no unresolvable reference. -/
inductive AltOk (l : List MAssignment) : MTy → Prop
  | constrained (t : MTy) (x : Constraint DefinedValue (Value DefinedValue)) : AltOk l t → AltOk l (.constrained t x)
  | time (a : Str) : TimeName a → AltOk l (.ref a)
  | ref (a b : Str) (t : MTy) : Resolves l a b t → AltOk l (.ref a)
  | other (t : MTy) : (∀ t' x, t ≠ .constrained t' x) → (∀ a, t ≠ .ref a) → AltOk l t

/-- The alternatives of a CHOICE are looked at up to the first tagged one; none of these is unresolvable. -/
inductive AltsOk (l : List MAssignment) : List MNamed → Prop
  | nil : AltsOk l []
  | tagged (n : Str) (t : MTy) (r : List MNamed) : AltOk l t → AltTagged l t → AltsOk l (.mk n t :: r)
  | cons (n : Str) (t : MTy) (r : List MNamed) : AltOk l t → ¬ AltTagged l t → AltsOk l r → AltsOk l (.mk n t :: r)

/-- Some alternative is (an alias of) a tagged type. -/
def SomeTagged (l : List MAssignment) (alts : List MNamed) : Prop := ∃ n t, NamedType.mk n t ∈ alts ∧ AltTagged l t

/-- The tags of a component are literal and not AUTOMATIC; `deflt` is the tag default of the module. -/
inductive TagsOk (deflt : Int) : MTy → Prop
  | tagged (cls n : Int) (t : MTy) (k : Int) (h : Bool) : (h = true → k ≠ TAGS_AUTOMATIC) → (h = false → deflt ≠ TAGS_AUTOMATIC) →
      TagsOk deflt t → TagsOk deflt (.tagged ⟨cls, .number n⟩ t k h)
  | constrained (t : MTy) (x : Constraint DefinedValue (Value DefinedValue)) : TagsOk deflt t → TagsOk deflt (.constrained t x)
  | other (t : MTy) : (∀ g t' k h, t ≠ .tagged g t' k h) → (∀ t' x, t ≠ .constrained t' x) → TagsOk deflt t

mutual

/-- The types that can be translated, in a module with assignments `l` and tag default `deflt`, with integers represented
as `repr`. -/
def Supported (l : List MAssignment) (deflt : Int) (repr : Str) : MTy → Prop
  | .integer _ => repr = c! "int64" ∨ repr = c! "big.Int"
  | .sequence a b => SupportedList l deflt repr a ∧ SupportedList l deflt repr b
  | .set a b => SupportedList l deflt repr a ∧ SupportedList l deflt repr b
  | .sequenceOf t => Supported l deflt repr t
  | .setOf t => Supported l deflt repr t
  | .tagged _ t _ _ => Supported l deflt repr t
  | .constrained t _ => Supported l deflt repr t
  | .ref a => ∃ b t, Resolves l a b t
  | .choice alts _ => AltsOk l alts ∧ (SomeTagged l alts ∨ SupportedOnly l deflt repr alts)
  | .null => False
  | .nil => False
  | .named _ => False
  | _ => True

/-- The only alternative of a CHOICE can be translated. -/
def SupportedOnly (l : List MAssignment) (deflt : Int) (repr : Str) : List MNamed → Prop
  | [.mk _ t] => Supported l deflt repr t
  | _ => True

/-- All components can be translated. -/
def SupportedList (l : List MAssignment) (deflt : Int) (repr : Str) : List MComponent → Prop
  | [] => True
  | .named (.mk _ t) _ _ :: r => Supported l deflt repr t ∧ TagsOk deflt t ∧ SupportedList l deflt repr r
  | .componentsOf _ :: _ => False
  | .nil :: r => SupportedList l deflt repr r

end

/-- Class, number and kind of tagging of the tags around a type, outermost first; `deflt` is the tag default. -/
def tagsAround (deflt : Int) : MTy → List (Int × Value DefinedValue × Int)
  | .tagged g t k h => (g.cls, g.classNumber, if h then k else deflt) :: tagsAround deflt t
  | .constrained t _ => tagsAround deflt t
  | _ => []

/-- The parameters `p` of a field tell of a component with type `t`, OPTIONAL if `o`, with default `d`: whether it may be
left out, its default number, the number of its innermost tag, the classes and kinds of tagging of all of its tags, and
which kind of string, time or set it is. -/
structure TagMeaning (l : List MAssignment) (deflt : Int) (t : MTy) (o : Bool) (d : Option (Value DefinedValue)) (p : FieldParams) : Prop where
  optional : p.optional = true ↔ o = true ∨ d ≠ none
  dflt : ∀ n, p.dflt = some n ↔ d = some (.number n)
  tag : ∀ n, p.tag = some n ↔ ∃ cls k, (tagsAround deflt t).getLast? = some (cls, .number n, k)
  explicit : p.explicit = true ↔ ∃ x ∈ tagsAround deflt t, x.2.2 = TAGS_EXPLICIT
  application : p.application = true ↔ ∃ x ∈ tagsAround deflt t, x.1 = CLASS_APPLICATION
  isPrivate : p.isPrivate = true ↔ ∃ x ∈ tagsAround deflt t, x.1 = CLASS_PRIVATE
  set : p.set = true ↔ (∃ a b, Core t (.set a b)) ∨ ∃ t', Core t (.setOf t')
  ia5 : p.stringType = 22 ↔ Core t (.restrictedString Tok.IA5String)
  numeric : p.stringType = 18 ↔ Core t (.restrictedString Tok.NumericString)
  utf8 : p.stringType = 12 ↔ Core t (.restrictedString Tok.UTF8String)
  strings : p.stringType ∈ [0, 12, 18, 22]
  generalized : p.timeType = 24 ↔ ∃ a t', Core t (.ref a) ∧ Leaf l a (c! "GeneralizedTime") t'
  utc : p.timeType = 23 ↔ ∃ a t', Core t (.ref a) ∧ Leaf l a (c! "UTCTime") t'
  times : p.timeType ∈ [0, 23, 24]
  omitEmpty : p.omitEmpty = false

/-- Numbers of a Go `int` on a 64-bit machine. -/
def GoInt (n : Int) : Prop := -9223372036854775808 ≤ n ∧ n ≤ 9223372036854775807

/-- Values for which a variable is made. -/
def Literal : Value DefinedValue → Prop
  | .number _ => True
  | .boolean _ => True
  | .real _ => True
  | _ => False

/-- The named numbers refer to no other module. -/
def LocalNumbers (l : List NamedNumber) : Prop := ∀ x ∈ l, ∀ d, x.value = .defined d → d.moduleName = []

/-- The assignments that can be translated. -/
def SupportedAssignment (l : List MAssignment) (deflt : Int) (repr : Str) : MAssignment → Prop
  | .type _ t => Supported l deflt repr t ∧ ∀ nums, Core t (.integer nums) → LocalNumbers nums
  | .value _ t v => Literal v → Supported l deflt repr t
  | .nil => True

end Asn1go.Spec
