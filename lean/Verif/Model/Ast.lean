import Verif.Model.Lexer

/-! Model of /repo/ast.go.

The types are parameterised by what stands behind the two kinds of pointers the parser makes into its
own stack: `R` is the target of `ObjectIdElement.Reference`, `D` the target of
`NamedComponentType.Default`.  Go slices are lists (nil and empty slices are not distinguished), nil
interfaces are explicit `nil` constructors.  Slices built by the parser are used linearly (each is
appended to once, by the reduction that consumes it), so sharing of backing arrays is not observable. -/

namespace Asn1go

/-- ast.go:31-35, `TagDefault`: explicit tags. -/
abbrev TAGS_EXPLICIT : Int := 0
/-- ast.go:33 -/
abbrev TAGS_IMPLICIT : Int := 1
/-- ast.go:34 -/
abbrev TAGS_AUTOMATIC : Int := 2

/-- ast.go:473-478, the classes of tags. -/
abbrev CLASS_CONTEXT_SPECIFIC : Int := 0
/-- ast.go:475 -/
abbrev CLASS_UNIVERSAL : Int := 1
/-- ast.go:476 -/
abbrev CLASS_APPLICATION : Int := 2
/-- ast.go:477 -/
abbrev CLASS_PRIVATE : Int := 3

/-- ast.go:236 `Real` (float64), kept symbolic: `lit i f e` is the result of `parseRealNumber(i, f, e)`
(parser.go:41-51), `neg` is `UnaryMinus`, `inf` the infinities. -/
inductive GoReal
  | lit (i f e : Int)
  | neg (x : GoReal)
  | posInf
  | negInf
  deriving DecidableEq, Repr

/-- ast.go:671-677 -/
structure DefinedValue where
  moduleName : Str := []
  valueName : Str := []
  deriving DecidableEq, Repr

/-- ast.go:710-718 -/
structure ObjectIdElement (R : Type) where
  name : Str := []
  id : Int := 0
  reference : Option R := none
  deriving DecidableEq, Repr

/-- ast.go:666-668: the interface `Value` and its implementations (ast.go:214, 236, 251, 671, 688, 702).
`IdentifiedIntegerValue.valueType` is never set and dropped. -/
inductive Value (R : Type)
  | nil
  | number (n : Int)
  | real (x : GoReal)
  | boolean (b : Bool)
  | defined (d : DefinedValue)
  | identifiedInteger (name : Str)
  | objectIdentifier (l : List (ObjectIdElement R))
  deriving DecidableEq, Repr

/-- ast.go:293-295 -/
inductive NamedNumberValue
  | nil
  | number (n : Int)
  | defined (d : DefinedValue)
  deriving DecidableEq, Repr

/-- ast.go:285-288 -/
structure NamedNumber where
  name : Str := []
  value : NamedNumberValue := .nil
  deriving DecidableEq, Repr

/-- ast.go:310-312 -/
inductive EnumerationItem
  | nil
  | namedNumber (n : NamedNumber)
  | identifier (s : Str)
  deriving DecidableEq, Repr

/-- ast.go:463-470 -/
structure Tag (R : Type) where
  cls : Int := 0
  classNumber : Value R := .nil

/-- ast.go:516-521 -/
structure NamedBit (R : Type) where
  name : Str := []
  index : Value R := .nil

/-- ast.go:621-624 -/
structure RangeEndpoint (R : Type) where
  value : Value R := .nil
  isOpen : Bool := false

mutual

/-- ast.go:262-264: the interface `Type` and its implementations (ast.go:138, 162, 267, 273, 279, 302, 318, 324,
331, 352, 362, 368, 378, 437, 446, 481, 489, 499, 508, 528). -/
inductive Ty (R D : Type)
  | nil
  | null
  | objectIdentifier
  | integer (namedNumbers : List NamedNumber)
  | enumerated (root additional : List EnumerationItem)
  | real
  | boolean
  | choice (alternatives : List (NamedType R D)) (extensions : List (Ty R D))
  | restrictedString (lexType : Int)
  | characterString
  | octetString
  | sequence (components extensions : List (ComponentType R D))
  | set (components extensions : List (ComponentType R D))
  | tagged (tag : Tag R) (type : Ty R D) (tagType : Int) (hasTagType : Bool)
  | sequenceOf (type : Ty R D)
  | setOf (type : Ty R D)
  | any (identifier : Str)
  | bitString (namedBits : List (NamedBit R))
  | constrained (type : Ty R D) (constraint : Constraint R D)
  | ref (name : Str)
  | named (n : NamedType R D)

/-- ast.go:138-141 -/
inductive NamedType (R D : Type)
  | mk (identifier : Str) (type : Ty R D)

/-- ast.go:406-409, implementations ast.go:412-416 and 425-427 -/
inductive ComponentType (R D : Type)
  | nil
  | named (n : NamedType R D) (isOptional : Bool) (default : Option D)
  | componentsOf (type : Ty R D)

/-- ast.go:537-540 -/
inductive Constraint (R D : Type)
  | mk (spec : ConstraintSpec R D)

/-- ast.go:544-546, implementations ast.go:556 and 657 -/
inductive ConstraintSpec (R D : Type)
  | nil
  | subtype (l : List (Elements R D))
  | general

/-- ast.go:580-583 -/
inductive IntersectionElements (R D : Type)
  | mk (elements : Elements R D) (exclusions : Elements R D)

/-- ast.go:597-599 and 562-565 (`ElementSetSpec` is the part of `Elements` made of `unions` and
`exclusions`), implementations ast.go:568, 586, 604, 612, 632, 640, 649.  In `IntersectionElements` the
field `Exclusions` is a struct holding an `Elements`, represented by that `Elements`. -/
inductive Elements (R D : Type)
  | nil
  | unions (l : List (List (IntersectionElements R D)))
  | exclusions (e : Elements R D)
  | singleValue (v : Value R)
  | valueRange (lower upper : RangeEndpoint R)
  | typeConstraint (t : Ty R D)
  | size (c : Constraint R D)
  | inner

end

/-- ast.go:138-141 -/
def NamedType.identifier {R D : Type} : NamedType R D → Str
  | .mk i _ => i

/-- ast.go:138-141 -/
def NamedType.type {R D : Type} : NamedType R D → Ty R D
  | .mk _ t => t

/-- ast.go:25-28 -/
structure DefinitiveObjIdComponent where
  name : Str := []
  id : Int := 0
  deriving DecidableEq, Repr

/-- ast.go:16-19 -/
structure ModuleIdentifier where
  reference : Str := []
  definitiveIdentifier : List DefinitiveObjIdComponent := []
  deriving DecidableEq, Repr

/-- ast.go:55-57 -/
inductive Symbol
  | nil
  | typeReference (s : Str)
  | valueReference (s : Str)
  | moduleReference (s : Str)
  deriving DecidableEq, Repr

/-- ast.go:60-63 -/
structure GlobalModuleReference (R : Type) where
  reference : Str := []
  assignedIdentifier : Value R := .nil

/-- ast.go:48-51 -/
structure SymbolsFromModule (R : Type) where
  symbolList : List Symbol := []
  module : GlobalModuleReference R := {}

/-- ast.go:109-111, implementations ast.go:114-118 and 126-129 -/
inductive Assignment (R D : Type)
  | nil
  | type (ref : Str) (t : Ty R D)
  | value (ref : Str) (t : Ty R D) (v : Value R)

/-- ast.go:42-45 -/
structure ModuleBody (R D : Type) where
  assignmentList : List (Assignment R D) := []
  imports : List (SymbolsFromModule R) := []

/-- ast.go:7-13 -/
structure ModuleDefinition (R D : Type) where
  moduleIdentifier : ModuleIdentifier := {}
  tagDefault : Int := 0
  extensibilityImplied : Bool := false
  moduleBody : ModuleBody R D := {}

/-- ast.go:395-399 -/
structure ComponentTypeLists (R D : Type) where
  components : List (ComponentType R D) := []
  extensionAdditions : List (ComponentType R D) := []
  trailingComponents : List (ComponentType R D) := []

/-- ast.go:549-553 -/
def singleElementConstraint {R D : Type} (e : Elements R D) : Constraint R D :=
  .mk (.subtype [.unions [[.mk e .nil]]])

/-- ast.go:121-123, 132-134: the name defined by an assignment. -/
def Assignment.name {R D : Type} : Assignment R D → Str
  | .nil => []
  | .type r _ => r
  | .value r _ _ => r

/-- ast.go:69-76 `Get`; `none` for nil. -/
def assignmentGet {R D : Type} : List (Assignment R D) → Str → Option (Assignment R D)
  | [], _ => none
  | a :: l, name => if a.name == name then some a else assignmentGet l name

/-- ast.go:79-90 `GetValue`: type and value of the assignment found. -/
def assignmentGetValue {R D : Type} (l : List (Assignment R D)) (name : Str) :
    Option (Str × Ty R D × Value R) :=
  match assignmentGet l name with
  | none => none
  | some (.value r t v) => some (r, t, v)
  | some _ => none

/-- ast.go:93-104 `GetType` -/
def assignmentGetType {R D : Type} (l : List (Assignment R D)) (name : Str) : Option (Str × Ty R D) :=
  match assignmentGet l name with
  | none => none
  | some (.type r t) => some (r, t)
  | some _ => none

/-! ### Changing what pointers point to -/

section Map

variable {R R' D D' : Type}

/-- Structural map over the reference of an `ObjectIdElement`.  The type is of ast.go:710-718; the map is not in the code. -/
def ObjectIdElement.map (f : R → R') (e : ObjectIdElement R) : ObjectIdElement R' :=
  { name := e.name, id := e.id, reference := e.reference.map f }

/-- Structural map.  The type is of ast.go:666-668; the map is not in the code. -/
def Value.map (f : R → R') : Value R → Value R'
  | .nil => .nil
  | .number n => .number n
  | .real x => .real x
  | .boolean b => .boolean b
  | .defined d => .defined d
  | .identifiedInteger s => .identifiedInteger s
  | .objectIdentifier l => .objectIdentifier (l.map (ObjectIdElement.map f))

/-- Structural map.  The type is of ast.go:463-470; the map is not in the code. -/
def Tag.map (f : R → R') (t : Tag R) : Tag R' := ⟨t.cls, t.classNumber.map f⟩
/-- Structural map.  The type is of ast.go:516-521; the map is not in the code. -/
def NamedBit.map (f : R → R') (t : NamedBit R) : NamedBit R' := ⟨t.name, t.index.map f⟩
/-- Structural map.  The type is of ast.go:621-624; the map is not in the code. -/
def RangeEndpoint.map (f : R → R') (t : RangeEndpoint R) : RangeEndpoint R' := ⟨t.value.map f, t.isOpen⟩

mutual

/-- Structural map over types.  The type is of ast.go:262-264; the map is not in the code. -/
def Ty.map (f : R → R') (g : D → D') : Ty R D → Ty R' D'
  | .nil => .nil
  | .null => .null
  | .objectIdentifier => .objectIdentifier
  | .integer l => .integer l
  | .enumerated a b => .enumerated a b
  | .real => .real
  | .boolean => .boolean
  | .choice a e => .choice (NamedType.mapList f g a) (Ty.mapList f g e)
  | .restrictedString n => .restrictedString n
  | .characterString => .characterString
  | .octetString => .octetString
  | .sequence a e => .sequence (ComponentType.mapList f g a) (ComponentType.mapList f g e)
  | .set a e => .set (ComponentType.mapList f g a) (ComponentType.mapList f g e)
  | .tagged t ty tt h => .tagged (t.map f) (Ty.map f g ty) tt h
  | .sequenceOf t => .sequenceOf (Ty.map f g t)
  | .setOf t => .setOf (Ty.map f g t)
  | .any s => .any s
  | .bitString l => .bitString (l.map (NamedBit.map f))
  | .constrained t c => .constrained (Ty.map f g t) (Constraint.map f g c)
  | .ref s => .ref s
  | .named n => .named (NamedType.map f g n)

/-- Structural map.  The type is of ast.go:262-264; the map is not in the code. -/
def Ty.mapList (f : R → R') (g : D → D') : List (Ty R D) → List (Ty R' D')
  | [] => []
  | t :: l => Ty.map f g t :: Ty.mapList f g l

/-- Structural map.  The type is of ast.go:138-141; the map is not in the code. -/
def NamedType.map (f : R → R') (g : D → D') : NamedType R D → NamedType R' D'
  | .mk i t => .mk i (Ty.map f g t)

/-- Structural map.  The type is of ast.go:138-141; the map is not in the code. -/
def NamedType.mapList (f : R → R') (g : D → D') : List (NamedType R D) → List (NamedType R' D')
  | [] => []
  | t :: l => NamedType.map f g t :: NamedType.mapList f g l

/-- Structural map.  The type is of ast.go:406-409; the map is not in the code. -/
def ComponentType.map (f : R → R') (g : D → D') : ComponentType R D → ComponentType R' D'
  | .nil => .nil
  | .named n o d => .named (NamedType.map f g n) o (d.map g)
  | .componentsOf t => .componentsOf (Ty.map f g t)

/-- Structural map.  The type is of ast.go:402; the map is not in the code. -/
def ComponentType.mapList (f : R → R') (g : D → D') : List (ComponentType R D) → List (ComponentType R' D')
  | [] => []
  | t :: l => ComponentType.map f g t :: ComponentType.mapList f g l

/-- Structural map.  The type is of ast.go:537-540; the map is not in the code. -/
def Constraint.map (f : R → R') (g : D → D') : Constraint R D → Constraint R' D'
  | .mk s => .mk (ConstraintSpec.map f g s)

/-- Structural map.  The type is of ast.go:544-546; the map is not in the code. -/
def ConstraintSpec.map (f : R → R') (g : D → D') : ConstraintSpec R D → ConstraintSpec R' D'
  | .nil => .nil
  | .subtype l => .subtype (Elements.mapList f g l)
  | .general => .general

/-- Structural map.  The type is of ast.go:580-583; the map is not in the code. -/
def IntersectionElements.map (f : R → R') (g : D → D') : IntersectionElements R D → IntersectionElements R' D'
  | .mk a b => .mk (Elements.map f g a) (Elements.map f g b)

/-- Structural map.  The type is of ast.go:577; the map is not in the code. -/
def IntersectionElements.mapList (f : R → R') (g : D → D') :
    List (IntersectionElements R D) → List (IntersectionElements R' D')
  | [] => []
  | t :: l => IntersectionElements.map f g t :: IntersectionElements.mapList f g l

/-- Structural map.  The type is of ast.go:568; the map is not in the code. -/
def IntersectionElements.mapListList (f : R → R') (g : D → D') :
    List (List (IntersectionElements R D)) → List (List (IntersectionElements R' D'))
  | [] => []
  | t :: l => IntersectionElements.mapList f g t :: IntersectionElements.mapListList f g l

/-- Structural map.  The type is of ast.go:597-599; the map is not in the code. -/
def Elements.map (f : R → R') (g : D → D') : Elements R D → Elements R' D'
  | .nil => .nil
  | .unions l => .unions (IntersectionElements.mapListList f g l)
  | .exclusions e => .exclusions (Elements.map f g e)
  | .singleValue v => .singleValue (v.map f)
  | .valueRange a b => .valueRange (a.map f) (b.map f)
  | .typeConstraint t => .typeConstraint (Ty.map f g t)
  | .size c => .size (Constraint.map f g c)
  | .inner => .inner

/-- Structural map.  The type is of ast.go:556; the map is not in the code. -/
def Elements.mapList (f : R → R') (g : D → D') : List (Elements R D) → List (Elements R' D')
  | [] => []
  | t :: l => Elements.map f g t :: Elements.mapList f g l

end

/-- Structural map.  The type is of ast.go:60-63; the map is not in the code. -/
def GlobalModuleReference.map (f : R → R') (t : GlobalModuleReference R) : GlobalModuleReference R' :=
  ⟨t.reference, t.assignedIdentifier.map f⟩

/-- Structural map.  The type is of ast.go:48-51; the map is not in the code. -/
def SymbolsFromModule.map (f : R → R') (t : SymbolsFromModule R) : SymbolsFromModule R' :=
  ⟨t.symbolList, t.module.map f⟩

/-- Structural map.  The type is of ast.go:109-111; the map is not in the code. -/
def Assignment.map (f : R → R') (g : D → D') : Assignment R D → Assignment R' D'
  | .nil => .nil
  | .type r t => .type r (t.map f g)
  | .value r t v => .value r (t.map f g) (v.map f)

/-- Structural map.  The type is of ast.go:42-45; the map is not in the code. -/
def ModuleBody.map (f : R → R') (g : D → D') (m : ModuleBody R D) : ModuleBody R' D' :=
  ⟨m.assignmentList.map (Assignment.map f g), m.imports.map (SymbolsFromModule.map f)⟩

/-- Structural map.  The type is of ast.go:395-399; the map is not in the code. -/
def ComponentTypeLists.map (f : R → R') (g : D → D') (m : ComponentTypeLists R D) : ComponentTypeLists R' D' :=
  ⟨ComponentType.mapList f g m.components, ComponentType.mapList f g m.extensionAdditions,
    ComponentType.mapList f g m.trailingComponents⟩

/-- Structural map.  The type is of ast.go:7-13; the map is not in the code. -/
def ModuleDefinition.map (f : R → R') (g : D → D') (m : ModuleDefinition R D) : ModuleDefinition R' D' :=
  ⟨m.moduleIdentifier, m.tagDefault, m.extensibilityImplied, m.moduleBody.map f g⟩

end Map

end Asn1go
