import Verif.Spec.Codegen
import Mathlib.Data.List.Forall2

/-! Declarative notions for generated files: identifiers and packages used, and which declarations belong to which assignments. -/

namespace Asn1go.Spec

open Asn1go

mutual

/-- The identifiers used in an expression. -/
def exprIdents : GoExpr → List Str
  | .ident n => [n]
  | .star x => exprIdents x
  | .array x => exprIdents x
  | .struct fs => fieldIdents fs
  | .call f a => f :: exprIdents a
  | .nil => []
  | .iface => []
  | .lit _ => []
  | .real _ => []

/-- The identifiers used in the types of fields. -/
def fieldIdents : List GoField → List Str
  | [] => []
  | .mk _ t _ :: l => exprIdents t ++ fieldIdents l

end

/-- The identifiers used in a declaration. -/
def declIdents : GoDecl → List Str
  | .type l => l.flatMap fun s => exprIdents s.type
  | .var l => l.flatMap fun s => exprIdents s.type ++ exprIdents s.value
  | .imp _ => []

/-- The package in a qualified identifier. -/
def qualifier (s : Str) : Option Str := if '.' ∈ s then some (s.takeWhile fun c => c ≠ '.') else none

/-- The name of the package with an import path. -/
def packageOf (path : Str) : Str := (path.reverse.takeWhile fun c => c ≠ '/').reverse

/-- The identifier is used in the file. -/
def FileIdent (f : GoFile) (x : Str) : Prop := ∃ d ∈ f.decls, x ∈ declIdents d

/-- The import path is imported by the file. -/
def FileImports (f : GoFile) (path : Str) : Prop := GoDecl.imp path ∈ f.decls

/-- The import paths of a file, in order. -/
def importsOf : List GoDecl → List Str
  | [] => []
  | .imp p :: l => p :: importsOf l
  | _ :: l => importsOf l

mutual

/-- The references in a type that become Go identifiers. -/
def tyNames : MTy → List Str
  | .ref a => [a]
  | .sequence a b => componentNames a ++ componentNames b
  | .set a b => componentNames a ++ componentNames b
  | .sequenceOf t => tyNames t
  | .setOf t => tyNames t
  | .tagged _ t _ _ => tyNames t
  | .constrained t _ => tyNames t
  | .choice alts _ => alternativeNames alts
  | _ => []

/-- The references in alternatives. -/
def alternativeNames : List MNamed → List Str
  | [] => []
  | .mk _ t :: l => tyNames t ++ alternativeNames l

/-- The references in components. -/
def componentNames : List MComponent → List Str
  | [] => []
  | .named (.mk _ t) _ _ :: l => tyNames t ++ componentNames l
  | _ :: l => componentNames l

end

/-- The references to values in named numbers. -/
def numberNames (l : List NamedNumber) : List Str :=
  l.flatMap fun n => match n.value with
    | .defined d => [d.valueName]
    | _ => []

/-- The named numbers of an INTEGER type under tags and constraints. -/
def namedNumbers : MTy → List NamedNumber
  | .tagged _ t _ _ => namedNumbers t
  | .constrained t _ => namedNumbers t
  | .integer l => l
  | _ => []

/-- The names in an assignment that become Go identifiers used somewhere. -/
def assignmentNames : MAssignment → List Str
  | .type r t => r :: (tyNames t ++ numberNames (namedNumbers t))
  | .value _ t _ => tyNames t
  | .nil => []

/-- No name in the module contains a dot, as is the case for all names the lexer makes. -/
def Undotted (l : List MAssignment) : Prop := ∀ a ∈ l, ∀ n ∈ assignmentNames a, '.' ∉ n

/-- A named component: name, type, OPTIONAL, DEFAULT. -/
structure Member where
  name : Str
  type : MTy
  optional : Bool
  default : Option (Value DefinedValue)

/-- The named components, in order. -/
def members (l : List MComponent) : List Member :=
  l.filterMap fun c => match c with
    | .named (.mk n t) o d => some ⟨n, t, o, d⟩
    | _ => none

/-- The types for which the SET naming is used: SET and SET OF, under tags and constraints, as element of SEQUENCE OF
and as only alternative of a CHOICE that is not (an alias of) a tagged type. -/
inductive MarksSet (l : List MAssignment) : MTy → Prop
  | set (a b : List MComponent) : MarksSet l (.set a b)
  | setOf (t : MTy) : MarksSet l (.setOf t)
  | sequenceOf (t : MTy) : MarksSet l t → MarksSet l (.sequenceOf t)
  | tagged (g : Tag DefinedValue) (t : MTy) (k : Int) (h : Bool) : MarksSet l t → MarksSet l (.tagged g t k h)
  | constrained (t : MTy) (x : Constraint DefinedValue (Value DefinedValue)) : MarksSet l t → MarksSet l (.constrained t x)
  | choice (n : Str) (t : MTy) (e : List MTy) : ¬ AltTagged l t → MarksSet l t → MarksSet l (.choice [.mk n t] e)

/-- `Inside l t t'`: translating the type `t` involves translating `t'`. -/
inductive Inside (l : List MAssignment) : MTy → MTy → Prop
  | here (t : MTy) : Inside l t t
  | sequence (a b : List MComponent) (x : Member) (t : MTy) : x ∈ members (a ++ b) → Inside l x.type t → Inside l (.sequence a b) t
  | set (a b : List MComponent) (x : Member) (t : MTy) : x ∈ members (a ++ b) → Inside l x.type t → Inside l (.set a b) t
  | sequenceOf (t t' : MTy) : Inside l t t' → Inside l (.sequenceOf t) t'
  | setOf (t t' : MTy) : Inside l t t' → Inside l (.setOf t) t'
  | tagged (g : Tag DefinedValue) (t t' : MTy) (k : Int) (h : Bool) : Inside l t t' → Inside l (.tagged g t k h) t'
  | constrained (t t' : MTy) (x : Constraint DefinedValue (Value DefinedValue)) : Inside l t t' → Inside l (.constrained t x) t'
  | choice (n : Str) (t t' : MTy) (e : List MTy) : ¬ AltTagged l t → Inside l t t' → Inside l (.choice [.mk n t] e) t'

/-- The number starts with a superfluous zero, which makes it octal in Go. -/
def leadingZero : Str → Bool
  | '0' :: _ :: _ => true
  | '-' :: '0' :: _ :: _ => true
  | _ => false

/-- `e` is a Go expression for the number `n`, integers being represented as `repr`. -/
def IntExpr (repr : Str) (n : Int) (e : GoExpr) : Prop :=
  ∃ s, signed s = some n ∧ leadingZero s = false ∧ e = if repr = c! "big.Int" then .call (c! "big.NewInt") (.lit s) else .lit s

/-- The struct tag of a field tells what the component says, if all its numbers fit a Go `int`; it says `optional` at most
once. -/
structure FieldTag (l : List MAssignment) (deflt : Int) (x : Member) (tag : Option Str) : Prop where
  meaning : (∀ cls n k, (cls, Value.number n, k) ∈ tagsAround deflt x.type → GoInt n) → (∀ n, x.default = some (.number n) → GoInt n) →
    TagMeaning l deflt x.type x.optional x.default (fieldParams tag)
  optional : (x.optional = true ∨ x.default ≠ none) → (tagParts tag).count (c! "optional") = 1
  required : ¬ (x.optional = true ∨ x.default ≠ none) → c! "optional" ∉ tagParts tag

mutual

/-- The Go type of a type, in a module with assignments `l` and tag default `deflt`, integers being represented as `repr`. -/
inductive GoTypeOf (u : Casing) (l : List MAssignment) (deflt : Int) (repr : Str) : MTy → GoExpr → Prop
  | boolean : GoTypeOf u l deflt repr .boolean (.ident (c! "bool"))
  | int64 (nums : List NamedNumber) : repr = c! "int64" → GoTypeOf u l deflt repr (.integer nums) (.ident (c! "int64"))
  | bigInt (nums : List NamedNumber) : repr = c! "big.Int" → GoTypeOf u l deflt repr (.integer nums) (.star (.ident (c! "big.Int")))
  | real : GoTypeOf u l deflt repr .real (.ident (c! "float64"))
  | characterString : GoTypeOf u l deflt repr .characterString (.ident (c! "string"))
  | restrictedString (k : Int) : GoTypeOf u l deflt repr (.restrictedString k) (.ident (c! "string"))
  | octetString : GoTypeOf u l deflt repr .octetString (.array (.ident (c! "byte")))
  | bitString (nb : List (NamedBit DefinedValue)) : GoTypeOf u l deflt repr (.bitString nb) (.ident (c! "asn1.BitString"))
  | objectIdentifier : GoTypeOf u l deflt repr .objectIdentifier (.ident (c! "asn1.ObjectIdentifier"))
  | enumerated (a b : List EnumerationItem) : GoTypeOf u l deflt repr (.enumerated a b) (.ident (c! "asn1.Enumerated"))
  | any (x : Str) : GoTypeOf u l deflt repr (.any x) .iface
  | sequence (a b : List MComponent) (fs : List GoField) : FieldsOf u l deflt repr (members (a ++ b)) fs →
      GoTypeOf u l deflt repr (.sequence a b) (.struct fs)
  | set (a b : List MComponent) (fs : List GoField) : FieldsOf u l deflt repr (members (a ++ b)) fs →
      GoTypeOf u l deflt repr (.set a b) (.struct fs)
  | sequenceOf (t : MTy) (e : GoExpr) : GoTypeOf u l deflt repr t e → GoTypeOf u l deflt repr (.sequenceOf t) (.array e)
  | setOf (t : MTy) (e : GoExpr) : GoTypeOf u l deflt repr t e → GoTypeOf u l deflt repr (.setOf t) (.array e)
  | tagged (g : Tag DefinedValue) (t : MTy) (k : Int) (h : Bool) (e : GoExpr) : GoTypeOf u l deflt repr t e →
      GoTypeOf u l deflt repr (.tagged g t k h) e
  | constrained (t : MTy) (x : Constraint DefinedValue (Value DefinedValue)) (e : GoExpr) : GoTypeOf u l deflt repr t e →
      GoTypeOf u l deflt repr (.constrained t x) e
  | time (a r : Str) (t : MTy) : Resolves l a r t → TimeName r → GoTypeOf u l deflt repr (.ref a) (.ident (c! "time.Time"))
  | bits (a r : Str) (t : MTy) (nb : List (NamedBit DefinedValue)) : Resolves l a r t → ¬ TimeName r → Core t (.bitString nb) →
      GoTypeOf u l deflt repr (.ref a) (.ident (c! "asn1.BitString"))
  | ref (a r : Str) (t : MTy) : Resolves l a r t → ¬ TimeName r → (∀ nb, ¬ Core t (.bitString nb)) →
      GoTypeOf u l deflt repr (.ref a) (.ident (goifyName u a))
  | rawChoice (alts : List MNamed) (e : List MTy) : SomeTagged l alts → GoTypeOf u l deflt repr (.choice alts e) (.ident (c! "asn1.RawValue"))
  | onlyChoice (n : Str) (t : MTy) (ext : List MTy) (e : GoExpr) : ¬ AltTagged l t → GoTypeOf u l deflt repr t e →
      GoTypeOf u l deflt repr (.choice [.mk n t] ext) e
  | choice (alts : List MNamed) (e : List MTy) : ¬ SomeTagged l alts → alts.length ≠ 1 → GoTypeOf u l deflt repr (.choice alts e) .iface

/-- The fields of a struct, one per component, in order. -/
inductive FieldsOf (u : Casing) (l : List MAssignment) (deflt : Int) (repr : Str) : List Member → List GoField → Prop
  | nil : FieldsOf u l deflt repr [] []
  | cons (x : Member) (xs : List Member) (e : GoExpr) (tag : Option Str) (fs : List GoField) : GoTypeOf u l deflt repr x.type e →
      FieldTag l deflt x tag → FieldsOf u l deflt repr xs fs → FieldsOf u l deflt repr (x :: xs) (.mk (goifyName u x.name) e tag :: fs)

end

/-- `Within e x`: the expression `x` is part of the expression `e`. -/
inductive Within : GoExpr → GoExpr → Prop
  | here (e : GoExpr) : Within e e
  | array (e x : GoExpr) : Within e x → Within (.array e) x
  | field (n : Str) (e x : GoExpr) (tag : Option Str) (fs : List GoField) : GoField.mk n e tag ∈ fs → Within e x → Within (.struct fs) x

/-- `d` declares `name` as the type `t`: as alias of a type named for encoding/asn1, as struct, or as alias of its Go type. -/
inductive TypeDecl (u : Casing) (l : List MAssignment) (deflt : Int) (repr name : Str) (t : MTy) : GoDecl → Prop
  | struct (fs : List GoField) : ¬ MarksSet l t → GoTypeOf u l deflt repr t (.struct fs) →
      TypeDecl u l deflt repr name t (.type [⟨name, false, .struct fs⟩])
  | alias (e : GoExpr) : ¬ MarksSet l t → GoTypeOf u l deflt repr t e → (∀ fs, e ≠ .struct fs) →
      TypeDecl u l deflt repr name t (.type [⟨name, true, e⟩])
  | set (e : GoExpr) : MarksSet l t → GoTypeOf u l deflt repr t e →
      TypeDecl u l deflt repr name t (.type [⟨name ++ c! "SET", false, e⟩, ⟨name, true, .ident (name ++ c! "SET")⟩])

/-- The variable `s` is for the named number `n` of the type with Go name `name`. -/
structure NumberVar (u : Casing) (repr name : Str) (n : NamedNumber) (s : GoValueSpec) : Prop where
  named : s.name = name ++ c! "Val" ++ goifyName u n.name
  type : s.type = .ident name
  number : ∀ k, n.value = .number k → IntExpr repr k s.value
  defined : ∀ d, n.value = .defined d → s.value = .ident (c! "Val" ++ goifyName u d.valueName)
  none : n.value = .nil → s.value = .nil

/-- `v` holds the variables for the named numbers of the type `t` with Go name `name`. -/
inductive NumberVars (u : Casing) (repr name : Str) (t : MTy) : List GoDecl → Prop
  | none : (∀ nums, Core t (.integer nums) → nums = []) → NumberVars u repr name t []
  | vars (nums : List NamedNumber) (specs : List GoValueSpec) : Core t (.integer nums) → nums ≠ [] →
      List.Forall₂ (NumberVar u repr name) nums specs → NumberVars u repr name t [.var specs]

/-- `e` is a Go expression for the literal value `v`. -/
inductive LiteralExpr (repr : Str) : Value DefinedValue → GoExpr → Prop
  | number (n : Int) (e : GoExpr) : IntExpr repr n e → LiteralExpr repr (.number n) e
  | boolean (b : Bool) : LiteralExpr repr (.boolean b) (.lit (if b then c! "true" else c! "false"))
  | real (x : GoReal) : LiteralExpr repr (.real x) (.real x)

/-- The declarations for assignments: for each type its declaration and the variables for its named numbers, for each literal
value its variable, in order; `l` are all assignments of the module. -/
inductive DeclsFor (u : Casing) (l : List MAssignment) (deflt : Int) (repr : Str) : List MAssignment → List GoDecl → Prop
  | done : DeclsFor u l deflt repr [] []
  | type (r : Str) (t : MTy) (as : List MAssignment) (d : GoDecl) (v ds : List GoDecl) : TypeDecl u l deflt repr (goifyName u r) t d →
      NumberVars u repr (goifyName u r) t v → DeclsFor u l deflt repr as ds → DeclsFor u l deflt repr (.type r t :: as) (d :: (v ++ ds))
  | value (r : Str) (t : MTy) (v : Value DefinedValue) (as : List MAssignment) (ty e : GoExpr) (ds : List GoDecl) : LiteralExpr repr v e →
      GoTypeOf u l deflt repr t ty → DeclsFor u l deflt repr as ds →
      DeclsFor u l deflt repr (.value r t v :: as) (.var [⟨c! "Val" ++ goifyName u r, ty, e⟩] :: ds)
  | skip (r : Str) (t : MTy) (v : Value DefinedValue) (as : List MAssignment) (ds : List GoDecl) : ¬ Literal v →
      DeclsFor u l deflt repr as ds → DeclsFor u l deflt repr (.value r t v :: as) ds
  | nil (as : List MAssignment) (ds : List GoDecl) : DeclsFor u l deflt repr as ds → DeclsFor u l deflt repr (.nil :: as) ds

end Asn1go.Spec
