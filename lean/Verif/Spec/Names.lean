import Verif.Spec.Lexical
import Verif.Model.Ast

/-! The names and numbers of a module. -/

namespace Asn1go.Spec

open Asn1go

/-- A name of a module or type, another name, or a number. -/
inductive Atom
  | upper (s : Str)
  | lower (s : Str)
  | number (n : Int)
  deriving DecidableEq

/-- A name as the notation of ASN.1 has it, or a number for which 64 bits are enough. -/
def Atom.Good (u : Unicode) : Atom → Prop
  | .upper s => Word u s ∧ s.head?.map u.isUpper = some true
  | .lower s => Word u s ∧ s.head?.map u.isUpper = some false
  | .number n => -9223372036854775808 < n ∧ n < 9223372036854775808

/-- A name that may be left out. -/
def optionalName (k : Str → Atom) : Str → List Atom
  | [] => []
  | s => [k s]

/-- `M.v` -/
def definedAtoms (d : DefinedValue) : List Atom := optionalName .upper d.moduleName ++ [.lower d.valueName]

/-- The names of a reference that a pointer points to; it can be the zero value, which has none. -/
def shownAtoms : DefinedValue → List Atom
  | ⟨[], []⟩ => []
  | d => definedAtoms d

/-- The numbers of a REAL value. -/
def realAtoms : GoReal → List Atom
  | .lit i f e => [.number i, .number f, .number e]
  | .neg x => realAtoms x
  | .posInf => []
  | .negInf => []

/-- The names and numbers of a named number. -/
def numberAtoms (n : NamedNumber) : List Atom :=
  .lower n.name :: match n.value with
    | .nil => []
    | .number k => [.number k]
    | .defined d => definedAtoms d

/-- The names and numbers of an enumeration item. -/
def itemAtoms : EnumerationItem → List Atom
  | .nil => []
  | .namedNumber n => numberAtoms n
  | .identifier s => [.lower s]

section

variable {R D : Type} (r : R → List Atom) (d : D → List Atom)

/-- The names and numbers of a value; `r` tells those of what references point to. -/
def valueAtoms : Value R → List Atom
  | .nil => []
  | .number n => [.number n]
  | .real x => realAtoms x
  | .boolean _ => []
  | .defined v => definedAtoms v
  | .identifiedInteger s => [.lower s]
  | .objectIdentifier l => l.flatMap fun e => optionalName .lower e.name ++ [.number e.id] ++ match e.reference with
    | none => []
    | some x => r x

mutual

/-- The names and numbers of a type; `d` tells those of what defaults point to. -/
def tyAtoms : Ty R D → List Atom
  | .integer l => l.flatMap numberAtoms
  | .enumerated a b => a.flatMap itemAtoms ++ b.flatMap itemAtoms
  | .choice a e => namedListAtoms a ++ tyListAtoms e
  | .sequence a e => componentListAtoms a ++ componentListAtoms e
  | .set a e => componentListAtoms a ++ componentListAtoms e
  | .tagged t ty _ _ => valueAtoms r t.classNumber ++ tyAtoms ty
  | .sequenceOf t => tyAtoms t
  | .setOf t => tyAtoms t
  | .any s => optionalName .lower s
  | .bitString l => l.flatMap fun b => .lower b.name :: valueAtoms r b.index
  | .constrained t c => tyAtoms t ++ constraintAtoms c
  | .ref s => [.upper s]
  | .named n => namedAtoms n
  | _ => []

/-- The names and numbers of types. -/
def tyListAtoms : List (Ty R D) → List Atom
  | [] => []
  | t :: l => tyAtoms t ++ tyListAtoms l

/-- The names and numbers of a component. -/
def namedAtoms : NamedType R D → List Atom
  | .mk s t => .lower s :: tyAtoms t

/-- The names and numbers of alternatives. -/
def namedListAtoms : List (NamedType R D) → List Atom
  | [] => []
  | t :: l => namedAtoms t ++ namedListAtoms l

/-- The names and numbers of a component. -/
def componentAtoms : ComponentType R D → List Atom
  | .nil => []
  | .named n _ none => namedAtoms n
  | .named n _ (some x) => namedAtoms n ++ d x
  | .componentsOf t => tyAtoms t

/-- The names and numbers of components. -/
def componentListAtoms : List (ComponentType R D) → List Atom
  | [] => []
  | t :: l => componentAtoms t ++ componentListAtoms l

/-- The names and numbers of a constraint. -/
def constraintAtoms : Constraint R D → List Atom
  | .mk s => specAtoms s

/-- The names and numbers of a constraint. -/
def specAtoms : ConstraintSpec R D → List Atom
  | .nil => []
  | .subtype l => elementsListAtoms l
  | .general => []

/-- The names and numbers of a part of an intersection. -/
def partAtoms : IntersectionElements R D → List Atom
  | .mk a b => elementsAtoms a ++ elementsAtoms b

/-- The names and numbers of an intersection. -/
def partListAtoms : List (IntersectionElements R D) → List Atom
  | [] => []
  | t :: l => partAtoms t ++ partListAtoms l

/-- The names and numbers of a union. -/
def unionAtoms : List (List (IntersectionElements R D)) → List Atom
  | [] => []
  | t :: l => partListAtoms t ++ unionAtoms l

/-- The names and numbers of a set of values. -/
def elementsAtoms : Elements R D → List Atom
  | .nil => []
  | .unions l => unionAtoms l
  | .exclusions e => elementsAtoms e
  | .singleValue v => valueAtoms r v
  | .valueRange a b => valueAtoms r a.value ++ valueAtoms r b.value
  | .typeConstraint t => tyAtoms t
  | .size c => constraintAtoms c
  | .inner => []

/-- The names and numbers of sets of values. -/
def elementsListAtoms : List (Elements R D) → List Atom
  | [] => []
  | t :: l => elementsAtoms t ++ elementsListAtoms l

end

/-- The names and numbers of an assignment. -/
def assignmentAtoms : Assignment R D → List Atom
  | .nil => []
  | .type s t => .upper s :: tyAtoms r d t
  | .value s t v => .lower s :: (tyAtoms r d t ++ valueAtoms r v)

/-- The name of an exported or imported symbol. -/
def symbolAtoms : Symbol → List Atom
  | .nil => []
  | .typeReference s => [.upper s]
  | .valueReference s => [.lower s]
  | .moduleReference s => [.upper s]

/-- The names and numbers of the imports from a module. -/
def importAtoms (i : SymbolsFromModule R) : List Atom :=
  i.symbolList.flatMap symbolAtoms ++ .upper i.module.reference :: valueAtoms r i.module.assignedIdentifier

/-- The names and numbers of a module. -/
def moduleAtoms (m : ModuleDefinition R D) : List Atom :=
  .upper m.moduleIdentifier.reference ::
    (m.moduleIdentifier.definitiveIdentifier.flatMap (fun c => optionalName .lower c.name ++ [.number c.id]) ++
      m.moduleBody.imports.flatMap (importAtoms r) ++ m.moduleBody.assignmentList.flatMap (assignmentAtoms r d))

end

end Asn1go.Spec
