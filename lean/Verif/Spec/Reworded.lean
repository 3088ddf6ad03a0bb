import Verif.Spec.Tree
import Verif.Model.Parser

/-! Texts and modules that differ in names only: every name `w` is replaced by `f w`.  References are changed by `g` and defaults by `h`, because in a module
that is being read they are pointers. -/

namespace Asn1go.Spec

open Asn1go

section

variable (f : Str → Str)

/-- The token with the new name; keywords, symbols and numbers stay. -/
def newToken : Token → Token
  | (c, .name w) => (c, .name (f w))
  | t => t

/-- A reference with the new names. -/
def newDefined (d : DefinedValue) : DefinedValue := ⟨f d.moduleName, f d.valueName⟩

/-- A named number with the new names. -/
def newNumber (n : NamedNumber) : NamedNumber :=
  ⟨f n.name, match n.value with
    | .defined d => .defined (newDefined f d)
    | v => v⟩

/-- An item of an enumeration with the new names. -/
def newItem : EnumerationItem → EnumerationItem
  | .nil => .nil
  | .namedNumber n => .namedNumber (newNumber f n)
  | .identifier s => .identifier (f s)

/-- A component of the identifier of a module with the new name. -/
def newDefinitive (d : DefinitiveObjIdComponent) : DefinitiveObjIdComponent := ⟨f d.name, d.id⟩

/-- The name of a module, new. -/
def newModuleIdentifier (m : ModuleIdentifier) : ModuleIdentifier := ⟨f m.reference, m.definitiveIdentifier.map (newDefinitive f)⟩

/-- A symbol with the new name. -/
def newSymbol : Symbol → Symbol
  | .nil => .nil
  | .typeReference s => .typeReference (f s)
  | .valueReference s => .valueReference (f s)
  | .moduleReference s => .moduleReference (f s)

variable {R D : Type} (g : R → R) (h : D → D)

/-- A component of an object identifier value with the new names. -/
def newElement (e : ObjectIdElement R) : ObjectIdElement R := ⟨f e.name, e.id, e.reference.map g⟩

/-- A value with the new names. -/
def newValue : Value R → Value R
  | .defined d => .defined (newDefined f d)
  | .identifiedInteger s => .identifiedInteger (f s)
  | .objectIdentifier l => .objectIdentifier (l.map (newElement f g))
  | v => v

/-- A tag with the new names. -/
def newTag (t : Tag R) : Tag R := ⟨t.cls, newValue f g t.classNumber⟩

/-- A named bit with the new names. -/
def newBit (t : NamedBit R) : NamedBit R := ⟨f t.name, newValue f g t.index⟩

/-- A bound with the new names. -/
def newBound (t : RangeEndpoint R) : RangeEndpoint R := ⟨newValue f g t.value, t.isOpen⟩

mutual

/-- A type with the new names. -/
def newTy : Ty R D → Ty R D
  | .integer l => .integer (l.map (newNumber f))
  | .enumerated a b => .enumerated (a.map (newItem f)) (b.map (newItem f))
  | .choice a e => .choice (newNameds a) (newTys e)
  | .sequence a e => .sequence (newComponents a) (newComponents e)
  | .set a e => .set (newComponents a) (newComponents e)
  | .tagged t ty tt b => .tagged (newTag f g t) (newTy ty) tt b
  | .sequenceOf t => .sequenceOf (newTy t)
  | .setOf t => .setOf (newTy t)
  | .any s => .any (f s)
  | .bitString l => .bitString (l.map (newBit f g))
  | .constrained t c => .constrained (newTy t) (newConstraint c)
  | .ref s => .ref (f s)
  | .named n => .named (newNamed n)
  | .nil => .nil
  | .null => .null
  | .objectIdentifier => .objectIdentifier
  | .real => .real
  | .boolean => .boolean
  | .restrictedString n => .restrictedString n
  | .characterString => .characterString
  | .octetString => .octetString

/-- Types with the new names. -/
def newTys : List (Ty R D) → List (Ty R D)
  | [] => []
  | t :: l => newTy t :: newTys l

/-- A named type with the new names. -/
def newNamed : NamedType R D → NamedType R D
  | .mk i t => .mk (f i) (newTy t)

/-- Named types with the new names. -/
def newNameds : List (NamedType R D) → List (NamedType R D)
  | [] => []
  | t :: l => newNamed t :: newNameds l

/-- A component with the new names. -/
def newComponent : ComponentType R D → ComponentType R D
  | .nil => .nil
  | .named n o d => .named (newNamed n) o (d.map h)
  | .componentsOf t => .componentsOf (newTy t)

/-- Components with the new names. -/
def newComponents : List (ComponentType R D) → List (ComponentType R D)
  | [] => []
  | t :: l => newComponent t :: newComponents l

/-- A constraint with the new names. -/
def newConstraint : Constraint R D → Constraint R D
  | .mk s => .mk (newSpec s)

/-- What a constraint says, with the new names. -/
def newSpec : ConstraintSpec R D → ConstraintSpec R D
  | .nil => .nil
  | .subtype l => .subtype (newElementss l)
  | .general => .general

/-- A part of an intersection with the new names. -/
def newPart : IntersectionElements R D → IntersectionElements R D
  | .mk a b => .mk (newElements a) (newElements b)

/-- An intersection with the new names. -/
def newParts : List (IntersectionElements R D) → List (IntersectionElements R D)
  | [] => []
  | t :: l => newPart t :: newParts l

/-- A union of intersections with the new names. -/
def newUnion : List (List (IntersectionElements R D)) → List (List (IntersectionElements R D))
  | [] => []
  | t :: l => newParts t :: newUnion l

/-- A set of values with the new names. -/
def newElements : Elements R D → Elements R D
  | .nil => .nil
  | .unions l => .unions (newUnion l)
  | .exclusions e => .exclusions (newElements e)
  | .singleValue v => .singleValue (newValue f g v)
  | .valueRange a b => .valueRange (newBound f g a) (newBound f g b)
  | .typeConstraint t => .typeConstraint (newTy t)
  | .size c => .size (newConstraint c)
  | .inner => .inner

/-- Sets of values with the new names. -/
def newElementss : List (Elements R D) → List (Elements R D)
  | [] => []
  | t :: l => newElements t :: newElementss l

end

/-- A module named in imports, with the new names. -/
def newGlobal (t : GlobalModuleReference R) : GlobalModuleReference R := ⟨f t.reference, newValue f g t.assignedIdentifier⟩

/-- Imports from one module with the new names. -/
def newFrom (t : SymbolsFromModule R) : SymbolsFromModule R := ⟨t.symbolList.map (newSymbol f), newGlobal f g t.module⟩

/-- An assignment with the new names. -/
def newAssignment : Assignment R D → Assignment R D
  | .nil => .nil
  | .type r t => .type (f r) (newTy f g h t)
  | .value r t v => .value (f r) (newTy f g h t) (newValue f g v)

/-- What a module says, with the new names. -/
def newBody (m : ModuleBody R D) : ModuleBody R D := ⟨m.assignmentList.map (newAssignment f g h), m.imports.map (newFrom f g)⟩

/-- A module with the new names. -/
def newModule (m : ModuleDefinition R D) : ModuleDefinition R D :=
  ⟨newModuleIdentifier f m.moduleIdentifier, m.tagDefault, m.extensibilityImplied, newBody f g h m.moduleBody⟩

end

/-- The module with every name `w` replaced by `f w`, in references and defaults too. -/
def reworded (f : Str → Str) (m : Module) : Module := newModule f (newDefined f) (newValue f (newDefined f)) m

/-- Replacing names that leaves "no name" and the names of the two time types as they are. -/
structure Rewording (f : Str → Str) : Prop where
  empty : f [] = []
  generalized : f (c! "GeneralizedTime") = c! "GeneralizedTime"
  utc : f (c! "UTCTime") = c! "UTCTime"

end Asn1go.Spec
