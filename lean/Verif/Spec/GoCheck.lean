import Verif.Spec.GoFile
import Verif.Model.Float
import Mathlib.Logic.Relation

/-! Rules of the Go language for the declarations of a file (The Go Programming Language Specification), and the notions of
ASN.1 the generated files are compared with. -/

namespace Asn1go.Spec

open Asn1go Relation

/-! ### Names -/

/-- The names declared by declarations, in order. -/
def declared : List GoDecl → List Str
  | [] => []
  | .type l :: ds => l.map GoTypeSpec.name ++ declared ds
  | .var l :: ds => l.map GoValueSpec.name ++ declared ds
  | .imp _ :: ds => declared ds

/-- The predeclared types that generated files use. -/
def predeclared : List Str := [c! "bool", c! "byte", c! "float64", c! "int64", c! "string"]

/-- Every identifier used is declared in the file, predeclared, or from a package. -/
def NamesDeclared (f : GoFile) : Prop := ∀ x, FileIdent f x → x ∈ predeclared ∨ x ∈ declared f.decls ∨ '.' ∈ x

/-- An ASCII name that starts with a capital. -/
structure UpperName (u : Casing) (s : Str) : Prop where
  word : Word u.toUnicode s
  ascii : ∀ c ∈ s, c.toNat < 128
  upper : s.head?.map u.isUpper = some true

/-- An ASCII name that starts with a small letter. -/
structure LowerName (u : Casing) (s : Str) : Prop where
  word : Word u.toUnicode s
  ascii : ∀ c ∈ s, c.toNat < 128
  lower : s.head?.map u.isUpper = some false

/-- The names of types assigned, in order. -/
def typeNames (l : List MAssignment) : List Str :=
  l.filterMap fun a => match a with
    | .type r _ => some r
    | _ => none

/-- The names of values assigned, in order. -/
def valueNames (l : List MAssignment) : List Str :=
  l.filterMap fun a => match a with
    | .value r _ _ => some r
    | _ => none

/-- The names of a module are ASN.1 names in ASCII and no two of the same kind are the same. -/
structure WellNamed (u : Casing) (l : List MAssignment) : Prop where
  types : (typeNames l).Nodup
  values : (valueNames l).Nodup
  typeName : ∀ r ∈ typeNames l, UpperName u r
  valueName : ∀ r ∈ valueNames l, LowerName u r
  numbers : ∀ r t nums, .type r t ∈ l → Core t (.integer nums) → (nums.map NamedNumber.name).Nodup
  number : ∀ r t nums, .type r t ∈ l → Core t (.integer nums) → ∀ n ∈ nums, LowerName u n.name

/-- No type has the name of another, a SET type, followed by `SET`. -/
def NoSetClash (l : List MAssignment) : Prop := ∀ r t, .type r t ∈ l → MarksSet l t → r ++ c! "SET" ∉ typeNames l

/-- No name of a type contains `Val`. -/
def NoValName (l : List MAssignment) : Prop := ∀ r ∈ typeNames l, ¬ c! "Val" <:+: r

/-- What a name is declared for. -/
inductive Origin
  | ty (r : Str)
  | set (r : Str)
  | num (r n : Str)
  | val (r : Str)

/-- The name declared. -/
def Origin.name (u : Casing) : Origin → Str
  | .ty r => goifyName u r
  | .set r => goifyName u r ++ c! "SET"
  | .num r n => goifyName u r ++ (c! "Val" ++ goifyName u n)
  | .val r => c! "Val" ++ goifyName u r

/-- The assignments give rise to the name. -/
def Origin.Ok (l as : List MAssignment) : Origin → Prop
  | .ty r => r ∈ typeNames as
  | .set r => ∃ t, .type r t ∈ as ∧ MarksSet l t
  | .num r n => ∃ t nums, .type r t ∈ as ∧ Core t (.integer nums) ∧ n ∈ nums.map NamedNumber.name
  | .val r => ∃ t v, .value r t v ∈ as ∧ Literal v

/-- No two of the things names are declared for get the same Go name. -/
def NamesApart (u : Casing) (l : List MAssignment) : Prop := ∀ o o' : Origin, o.Ok l l → o'.Ok l l → o.name u = o'.name u → o = o'

/-- The names of the components of each SEQUENCE and SET that is translated for the type `t` are ASN.1 names in ASCII and
different. -/
def MembersNamed (u : Casing) (l : List MAssignment) (t : MTy) : Prop :=
  ∀ a b, Inside l t (.sequence a b) ∨ Inside l t (.set a b) →
    ((members (a ++ b)).map Member.name).Nodup ∧ ∀ x ∈ members (a ++ b), LowerName u x.name

/-- The name of a field. -/
def fieldName : GoField → Str
  | .mk n _ _ => n

/-- The type expressions of a file. -/
def FileType (f : GoFile) (e : GoExpr) : Prop :=
  (∃ specs s, GoDecl.type specs ∈ f.decls ∧ s ∈ specs ∧ s.type = e) ∨ (∃ specs s, GoDecl.var specs ∈ f.decls ∧ s ∈ specs ∧ s.type = e)

/-- The fields of each struct have different names. -/
def FieldsDistinct (f : GoFile) : Prop := ∀ e fs, FileType f e → Within e (.struct fs) → (fs.map fieldName).Nodup

/-! ### Packages -/

/-- `PackageUse l repr t x`: the Go type of `t` itself, without that of its parts, is written with the identifier `x` of a package. -/
inductive PackageUse (l : List MAssignment) (repr : Str) : MTy → Str → Prop
  | integer (nums : List NamedNumber) : repr = c! "big.Int" → PackageUse l repr (.integer nums) (c! "big.Int")
  | bitString (nb : List (NamedBit DefinedValue)) : PackageUse l repr (.bitString nb) (c! "asn1.BitString")
  | objectIdentifier : PackageUse l repr .objectIdentifier (c! "asn1.ObjectIdentifier")
  | enumerated (a b : List EnumerationItem) : PackageUse l repr (.enumerated a b) (c! "asn1.Enumerated")
  | time (a r : Str) (t : MTy) : Resolves l a r t → TimeName r → PackageUse l repr (.ref a) (c! "time.Time")
  | bits (a r : Str) (t : MTy) (nb : List (NamedBit DefinedValue)) : Resolves l a r t → ¬ TimeName r → Core t (.bitString nb) →
      PackageUse l repr (.ref a) (c! "asn1.BitString")
  | rawChoice (alts : List MNamed) (e : List MTy) : SomeTagged l alts → PackageUse l repr (.choice alts e) (c! "asn1.RawValue")

/-- The types of the module that are translated: those of type assignments and of literal values. -/
def Translated (as : List MAssignment) (t : MTy) : Prop := (∃ n, .type n t ∈ as) ∨ ∃ n v, .value n t v ∈ as ∧ Literal v

/-- Translating the assignments `as` uses `x` in a type. -/
def TypeUse (l : List MAssignment) (repr : Str) (as : List MAssignment) (x : Str) : Prop :=
  ∃ t t', Translated as t ∧ Inside l t t' ∧ PackageUse l repr t' x

/-- An integer is written in the assignments, as a value or as a named number. -/
def NumberWritten (as : List MAssignment) : Prop := (∃ n t k, .value n t (.number k) ∈ as) ∨
  ∃ n t nums x k, .type n t ∈ as ∧ Core t (.integer nums) ∧ x ∈ nums ∧ NamedNumber.value x = .number k

/-! ### Recursive types -/

mutual

/-- The types whose size the size of a type depends on. -/
def directIdents : GoExpr → List Str
  | .ident n => [n]
  | .struct fs => directFields fs
  | _ => []

/-- The types whose size the size of fields depends on. -/
def directFields : List GoField → List Str
  | [] => []
  | .mk _ t _ :: l => directIdents t ++ directFields l

end

/-- The file has a type declaration. -/
def Declares (f : GoFile) (s : GoTypeSpec) : Prop := ∃ specs, GoDecl.type specs ∈ f.decls ∧ s ∈ specs

/-- The size of the type `x` depends on that of the type `y`. -/
def SizeStep (f : GoFile) (x y : Str) : Prop :=
  (∃ s, Declares f s ∧ s.name = x ∧ y ∈ directIdents s.type) ∧ ∃ s, Declares f s ∧ s.name = y

/-- `x` is an alias that mentions the alias `y`. -/
def AliasStep (f : GoFile) (x y : Str) : Prop :=
  (∃ s, Declares f s ∧ s.name = x ∧ s.alias = true ∧ y ∈ exprIdents s.type) ∧ ∃ s, Declares f s ∧ s.name = y ∧ s.alias = true

/-- No type contains itself, and no alias refers to itself through aliases. -/
def NoBadRecursion (f : GoFile) : Prop := (∀ x, ¬ TransGen (SizeStep f) x x) ∧ ∀ x, ¬ TransGen (AliasStep f) x x

/-- `Holds l t a`: values of type `t` hold values of the referenced type `a`, other than as elements of SEQUENCE OF or SET OF. -/
inductive Holds (l : List MAssignment) : MTy → Str → Prop
  | ref (a : Str) : Holds l (.ref a) a
  | sequence (x y : List MComponent) (m : Member) (a : Str) : m ∈ members (x ++ y) → Holds l m.type a → Holds l (.sequence x y) a
  | set (x y : List MComponent) (m : Member) (a : Str) : m ∈ members (x ++ y) → Holds l m.type a → Holds l (.set x y) a
  | tagged (g : Tag DefinedValue) (t : MTy) (k : Int) (h : Bool) (a : Str) : Holds l t a → Holds l (.tagged g t k h) a
  | constrained (t : MTy) (x : Constraint DefinedValue (Value DefinedValue)) (a : Str) : Holds l t a → Holds l (.constrained t x) a
  | choice (n : Str) (t : MTy) (e : List MTy) (a : Str) : ¬ AltTagged l t → Holds l t a → Holds l (.choice [.mk n t] e) a

/-- References to `a` are taken for a time type: they lead to a type of the name GeneralizedTime or UTCTime, whatever the module
assigns to it (codegen.go:494-495). -/
def TimeAlias (l : List MAssignment) (a : Str) : Prop := ∃ b t, Resolves l a b t ∧ TimeName b

/-- `a` is assigned a type that holds values of type `b`, which is not taken for a time. -/
def HoldsStep (l : List MAssignment) (a b : Str) : Prop := ∃ t, .type a t ∈ l ∧ Holds l t b ∧ ¬ TimeAlias l b

/-- SEQUENCE and SET types, under tags and constraints and as only alternative of a CHOICE that is not tagged. -/
inductive StructLike (l : List MAssignment) : MTy → Prop
  | sequence (a b : List MComponent) : StructLike l (.sequence a b)
  | set (a b : List MComponent) : StructLike l (.set a b)
  | tagged (g : Tag DefinedValue) (t : MTy) (k : Int) (h : Bool) : StructLike l t → StructLike l (.tagged g t k h)
  | constrained (t : MTy) (x : Constraint DefinedValue (Value DefinedValue)) : StructLike l t → StructLike l (.constrained t x)
  | choice (n : Str) (t : MTy) (e : List MTy) : ¬ AltTagged l t → StructLike l t → StructLike l (.choice [.mk n t] e)

/-- `a` is assigned a type that becomes no Go type of its own and mentions the type `b`, which is not taken for a time. -/
def MentionsStep (l : List MAssignment) (a b : Str) : Prop :=
  ∃ t, .type a t ∈ l ∧ ¬ MarksSet l t ∧ ¬ StructLike l t ∧ Inside l t (.ref b) ∧ ¬ TimeAlias l b

/-! ### Types of values -/

/-- `Denotes f e x`: the type expression `e` is `x` when aliases declared in the file are followed. -/
inductive Denotes (f : GoFile) : GoExpr → GoExpr → Prop
  | here (e : GoExpr) : Denotes f e e
  | alias (n : Str) (e x : GoExpr) : Declares f ⟨n, true, e⟩ → Denotes f e x → Denotes f (.ident n) x

/-- The real is a number, whatever the last bits of `math.Log10`: its float64 is finite.  For others codegen.go:204-205 writes
`+Inf`, `-Inf` or `NaN`, which Go does not know. -/
def FiniteReal (x : GoReal) : Prop := ∀ log : MathLog10, ∃ q, x.float log = .fin q

/-- `s` is a decimal integer literal of Go, perhaps with a sign, for `n`. -/
def IntText (s : Str) (n : Int) : Prop := signed s = some n ∧ leadingZero s = false

/-- `Assignable f t v`: in the file, the expression `v` can be assigned to variables of type `t`. -/
inductive Assignable (f : GoFile) : GoExpr → GoExpr → Prop
  | int64 (t : GoExpr) (s : Str) (n : Int) : Denotes f t (.ident (c! "int64")) → IntText s n → GoInt n → Assignable f t (.lit s)
  | float64 (t : GoExpr) (s : Str) (n : Int) : Denotes f t (.ident (c! "float64")) → IntText s n → Assignable f t (.lit s)
  | real (t : GoExpr) (x : GoReal) : Denotes f t (.ident (c! "float64")) → FiniteReal x → Assignable f t (.real x)
  | bool (t : GoExpr) (s : Str) : Denotes f t (.ident (c! "bool")) → s = c! "true" ∨ s = c! "false" → Assignable f t (.lit s)
  | big (t : GoExpr) (s : Str) (n : Int) : Denotes f t (.star (.ident (c! "big.Int"))) → IntText s n → GoInt n →
      Assignable f t (.call (c! "big.NewInt") (.lit s))
  | variable (t t' x v : GoExpr) (n : Str) (specs : List GoValueSpec) : GoDecl.var specs ∈ f.decls → ⟨n, t', v⟩ ∈ specs →
      Denotes f t x → Denotes f t' x → Assignable f t (.ident n)

/-- The initial value of each variable has its type. -/
def WellTyped (f : GoFile) : Prop := ∀ specs s, GoDecl.var specs ∈ f.decls → s ∈ specs → Assignable f s.type s.value

/-- `TypeIs l t c`: the type `t` is `c` when references are followed and tags and constraints left out. -/
inductive TypeIs (l : List MAssignment) : MTy → MTy → Prop
  | core (t c : MTy) : Core t c → (∀ a, c ≠ .ref a) → TypeIs l t c
  | ref (t t' c : MTy) (a : Str) : Core t (.ref a) → Assigned l a t' → TypeIs l t' c → TypeIs l t c

/-- The type is, under tags and constraints, a reference taken for a time type. -/
def TimeTyped (l : List MAssignment) (t : MTy) : Prop := ∃ a, Core t (.ref a) ∧ TimeAlias l a

/-- The literal value `v` is of type `t`. -/
inductive ValueOf (l : List MAssignment) (t : MTy) : Value DefinedValue → Prop
  | integer (n : Int) (nums : List NamedNumber) : TypeIs l t (.integer nums) → GoInt n → ValueOf l t (.number n)
  | whole (n : Int) : TypeIs l t .real → GoInt n → ValueOf l t (.number n)
  | real (x : GoReal) : TypeIs l t .real → ValueOf l t (.real x)
  | boolean (b : Bool) : TypeIs l t .boolean → ValueOf l t (.boolean b)

/-- All literal values of the module are of their types, and the named numbers are integers. -/
structure ValuesOk (l : List MAssignment) : Prop where
  value : ∀ r t v, .value r t v ∈ l → Literal v → ValueOf l t v
  number : ∀ r t nums, .type r t ∈ l → Core t (.integer nums) → ∀ x ∈ nums,
    (∃ n, x.value = .number n ∧ GoInt n) ∨
    ∃ d t' v nums', x.value = .defined d ∧ .value d.valueName t' v ∈ l ∧ Literal v ∧ TypeIs l t' (.integer nums')

/-! ### All rules together -/

/-- The declarations of the file obey the rules of Go: names are declared, once; packages are imported, once, and used; fields
have different names; types do not contain themselves; initial values have the types of their variables. -/
structure GoOk (f : GoFile) : Prop where
  names : NamesDeclared f
  once : (declared f.decls).Nodup
  imported : ∀ x q, FileIdent f x → qualifier x = some q → ∃ path, FileImports f path ∧ packageOf path = q
  importedOnce : (importsOf f.decls).Nodup
  used : ∀ path ∈ importsOf f.decls, ∃ x, FileIdent f x ∧ qualifier x = some (packageOf path)
  fields : FieldsDistinct f
  recursion : NoBadRecursion f
  typed : WellTyped f

/-- The assignments obey the rules of ASN.1 that matter for `GoOk`: names are ASN.1 names and different where they must be,
values are of their types. -/
structure AsnOk (u : Casing) (l : List MAssignment) : Prop where
  named : WellNamed u l
  undotted : Undotted l
  typeMembers : ∀ n t, .type n t ∈ l → MembersNamed u l t
  valueMembers : ∀ n t v, .value n t v ∈ l → MembersNamed u l t
  values : ValuesOk l

/-- Names are different, as the standard asks: those of types, those of values, those of the numbers of a type, those of the
components of a type. -/
structure NamesDistinct (l : List MAssignment) : Prop where
  types : (typeNames l).Nodup
  values : (valueNames l).Nodup
  numbers : ∀ r t nums, .type r t ∈ l → Core t (.integer nums) → (nums.map NamedNumber.name).Nodup
  typeMembers : ∀ n t, .type n t ∈ l → ∀ a b, Inside l t (.sequence a b) ∨ Inside l t (.set a b) → ((members (a ++ b)).map Member.name).Nodup
  valueMembers : ∀ n t v, .value n t v ∈ l → ∀ a b, Inside l t (.sequence a b) ∨ Inside l t (.set a b) → ((members (a ++ b)).map Member.name).Nodup

end Asn1go.Spec
