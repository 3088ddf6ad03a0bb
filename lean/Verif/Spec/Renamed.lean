import Verif.Model.Codegen
import Mathlib.Data.List.Forall2

/-! Modules and Go files that differ in names only.  `ref` renames the references of types and values, `ident` the identifiers of components and of named numbers. -/

namespace Asn1go.Spec

/-- Values of which the generator reads the same: numbers, booleans and reals are equal; of others nothing is read. -/
inductive ValueAs : Value DefinedValue → Value DefinedValue → Prop
  | number (n : Int) : ValueAs (.number n) (.number n)
  | boolean (b : Bool) : ValueAs (.boolean b) (.boolean b)
  | real (x : GoReal) : ValueAs (.real x) (.real x)
  | other (v w : Value DefinedValue) : (∀ n, v ≠ .number n) → (∀ b, v ≠ .boolean b) → (∀ x, v ≠ .real x) → (∀ n, w ≠ .number n) → (∀ b, w ≠ .boolean b) →
      (∀ x, w ≠ .real x) → ValueAs v w

/-- The same for values that may be missing. -/
inductive DefaultAs : Option (Value DefinedValue) → Option (Value DefinedValue) → Prop
  | none : DefaultAs none none
  | some (v w : Value DefinedValue) : ValueAs v w → DefaultAs (some v) (some w)

variable (ref ident : Str → Str)

/-- A named number, renamed. -/
inductive NumberRenamed : NamedNumber → NamedNumber → Prop
  | number (n : Str) (x : Int) : NumberRenamed ⟨n, .number x⟩ ⟨ident n, .number x⟩
  | defined (n v m m' : Str) : (m = [] ↔ m' = []) → NumberRenamed ⟨n, .defined ⟨m, v⟩⟩ ⟨ident n, .defined ⟨m', ref v⟩⟩
  | nil (n : Str) : NumberRenamed ⟨n, .nil⟩ ⟨ident n, .nil⟩

mutual

/-- A type, renamed.  Constraints, extension alternatives, names of alternatives, of bits and of enumerations may change as they like. -/
inductive TyRenamed : MTy → MTy → Prop
  | nil : TyRenamed .nil .nil
  | null : TyRenamed .null .null
  | objectIdentifier : TyRenamed .objectIdentifier .objectIdentifier
  | integer (l l' : List NamedNumber) : List.Forall₂ (NumberRenamed ref ident) l l' → TyRenamed (.integer l) (.integer l')
  | enumerated (a b a' b' : List EnumerationItem) : TyRenamed (.enumerated a b) (.enumerated a' b')
  | real : TyRenamed .real .real
  | boolean : TyRenamed .boolean .boolean
  | choice (l l' : List MNamed) (e e' : List MTy) : AltsRenamed l l' → TyRenamed (.choice l e) (.choice l' e')
  | restrictedString (k : Int) : TyRenamed (.restrictedString k) (.restrictedString k)
  | characterString : TyRenamed .characterString .characterString
  | octetString : TyRenamed .octetString .octetString
  | sequence (a b a' b' : List MComponent) : ComponentsRenamed a a' → ComponentsRenamed b b' → TyRenamed (.sequence a b) (.sequence a' b')
  | set (a b a' b' : List MComponent) : ComponentsRenamed a a' → ComponentsRenamed b b' → TyRenamed (.set a b) (.set a' b')
  | tagged (cls : Int) (v v' : Value DefinedValue) (t t' : MTy) (k : Int) (h : Bool) : ValueAs v v' → TyRenamed t t' →
      TyRenamed (.tagged ⟨cls, v⟩ t k h) (.tagged ⟨cls, v'⟩ t' k h)
  | sequenceOf (t t' : MTy) : TyRenamed t t' → TyRenamed (.sequenceOf t) (.sequenceOf t')
  | setOf (t t' : MTy) : TyRenamed t t' → TyRenamed (.setOf t) (.setOf t')
  | any (i i' : Str) : TyRenamed (.any i) (.any i')
  | bitString (l l' : List (NamedBit DefinedValue)) : TyRenamed (.bitString l) (.bitString l')
  | constrained (t t' : MTy) (c c' : Constraint DefinedValue (Value DefinedValue)) : TyRenamed t t' → TyRenamed (.constrained t c) (.constrained t' c')
  | ref (n : Str) : TyRenamed (.ref n) (.ref (ref n))
  | named (n n' : MNamed) : TyRenamed (.named n) (.named n')

/-- Alternatives, renamed. -/
inductive AltsRenamed : List MNamed → List MNamed → Prop
  | nil : AltsRenamed [] []
  | cons (n n' : Str) (t t' : MTy) (l l' : List MNamed) : TyRenamed t t' → AltsRenamed l l' → AltsRenamed (.mk n t :: l) (.mk n' t' :: l')

/-- Components, renamed. -/
inductive ComponentsRenamed : List MComponent → List MComponent → Prop
  | nil : ComponentsRenamed [] []
  | named (n : Str) (t t' : MTy) (o : Bool) (d d' : Option (Value DefinedValue)) (l l' : List MComponent) : TyRenamed t t' → DefaultAs d d' →
      ComponentsRenamed l l' → ComponentsRenamed (.named (.mk n t) o d :: l) (.named (.mk (ident n) t') o d' :: l')
  | componentsOf (t t' : MTy) (l l' : List MComponent) : ComponentsRenamed l l' → ComponentsRenamed (.componentsOf t :: l) (.componentsOf t' :: l')
  | absent (l l' : List MComponent) : ComponentsRenamed l l' → ComponentsRenamed (.nil :: l) (.nil :: l')

end

/-- An assignment, renamed. -/
inductive AssignmentRenamed : MAssignment → MAssignment → Prop
  | type (n : Str) (t t' : MTy) : TyRenamed ref ident t t' → AssignmentRenamed (.type n t) (.type (ref n) t')
  | value (n : Str) (t t' : MTy) (v v' : Value DefinedValue) : TyRenamed ref ident t t' → ValueAs v v' → AssignmentRenamed (.value n t v) (.value (ref n) t' v')

/-- A module, renamed.  Its own name, and what it exports and imports, may change as they like. -/
structure ModuleRenamed (m m' : Module) : Prop where
  tags : m.tagDefault = m'.tagDefault
  list : List.Forall₂ (AssignmentRenamed ref ident) m.moduleBody.assignmentList m'.moduleBody.assignmentList

/-- The named number with the new names. -/
def renameNumber (n : NamedNumber) : NamedNumber :=
  ⟨ident n.name, match n.value with
    | .defined d => .defined ⟨d.moduleName, ref d.valueName⟩
    | v => v⟩

mutual

/-- The type with the new names.  Constraints are left as they are. -/
def renameTy : MTy → MTy
  | .integer l => .integer (l.map (renameNumber ref ident))
  | .choice l e => .choice (renameAlts l) e
  | .sequence a b => .sequence (renameComponents a) (renameComponents b)
  | .set a b => .set (renameComponents a) (renameComponents b)
  | .tagged g t k h => .tagged g (renameTy t) k h
  | .sequenceOf t => .sequenceOf (renameTy t)
  | .setOf t => .setOf (renameTy t)
  | .constrained t c => .constrained (renameTy t) c
  | .ref n => .ref (ref n)
  | t => t

def renameAlts : List MNamed → List MNamed
  | [] => []
  | .mk n t :: l => .mk (ident n) (renameTy t) :: renameAlts l

def renameComponents : List MComponent → List MComponent
  | [] => []
  | .named (.mk n t) o d :: l => .named (.mk (ident n) (renameTy t)) o d :: renameComponents l
  | .componentsOf t :: l => .componentsOf (renameTy t) :: renameComponents l
  | .nil :: l => .nil :: renameComponents l

end

def renameAssignment : MAssignment → MAssignment
  | .type n t => .type (ref n) (renameTy ref ident t)
  | .value n t v => .value (ref n) (renameTy ref ident t) v
  | .nil => .nil

/-- The module with the new names. -/
def renameModule (m : Module) : Module :=
  { m with moduleBody := { m.moduleBody with assignmentList := m.moduleBody.assignmentList.map (renameAssignment ref ident) } }

/-- Renaming that keeps different references different, and the names of the time types. -/
structure Keeps : Prop where
  different : Function.Injective ref
  generalized : ref (c! "GeneralizedTime") = c! "GeneralizedTime"
  utc : ref (c! "UTCTime") = c! "UTCTime"

/-- The names in generated files that are not made from names in the module. -/
def ownNames : List Str := [c! "bool", c! "int64", c! "big.Int", c! "string", c! "float64", c! "byte", c! "time.Time", c! "asn1.BitString", c! "asn1.Enumerated",
  c! "asn1.ObjectIdentifier", c! "asn1.RawValue"]

variable (u : Casing)

mutual

/-- A Go expression in which the names made from names in the module are those made from the new names. -/
inductive ExprRenamed : GoExpr → GoExpr → Prop
  | own (n : Str) : n ∈ ownNames → ExprRenamed (.ident n) (.ident n)
  | type (n : Str) : ExprRenamed (.ident (goifyName u n)) (.ident (goifyName u (ref n)))
  | value (n : Str) : ExprRenamed (.ident (c! "Val" ++ goifyName u n)) (.ident (c! "Val" ++ goifyName u (ref n)))
  | nil : ExprRenamed .nil .nil
  | star (e e' : GoExpr) : ExprRenamed e e' → ExprRenamed (.star e) (.star e')
  | array (e e' : GoExpr) : ExprRenamed e e' → ExprRenamed (.array e) (.array e')
  | iface : ExprRenamed .iface .iface
  | struct (l l' : List GoField) : FieldsRenamed l l' → ExprRenamed (.struct l) (.struct l')
  | lit (t : Str) : ExprRenamed (.lit t) (.lit t)
  | real (x : GoReal) : ExprRenamed (.real x) (.real x)
  | call (f : Str) (e e' : GoExpr) : ExprRenamed e e' → ExprRenamed (.call f e) (.call f e')

/-- The same for fields; what is said in their tags does not change. -/
inductive FieldsRenamed : List GoField → List GoField → Prop
  | nil : FieldsRenamed [] []
  | cons (n : Str) (e e' : GoExpr) (tag : Option Str) (l l' : List GoField) : ExprRenamed e e' → FieldsRenamed l l' →
      FieldsRenamed (.mk (goifyName u n) e tag :: l) (.mk (goifyName u (ident n)) e' tag :: l')

end

/-- The same for the variable of a named number of the type `n`. -/
inductive NumberSpecRenamed (n : Str) : GoValueSpec → GoValueSpec → Prop
  | mk (k : Str) (e e' : GoExpr) : ExprRenamed ref ident u e e' →
      NumberSpecRenamed n ⟨goifyName u n ++ c! "Val" ++ goifyName u k, .ident (goifyName u n), e⟩
        ⟨goifyName u (ref n) ++ c! "Val" ++ goifyName u (ident k), .ident (goifyName u (ref n)), e'⟩

/-- The same for declarations. -/
inductive DeclRenamed : GoDecl → GoDecl → Prop
  | type (n : Str) (a : Bool) (e e' : GoExpr) : ExprRenamed ref ident u e e' →
      DeclRenamed (.type [⟨goifyName u n, a, e⟩]) (.type [⟨goifyName u (ref n), a, e'⟩])
  | set (n : Str) (e e' : GoExpr) : ExprRenamed ref ident u e e' →
      DeclRenamed (.type [⟨goifyName u n ++ c! "SET", false, e⟩, ⟨goifyName u n, true, .ident (goifyName u n ++ c! "SET")⟩])
        (.type [⟨goifyName u (ref n) ++ c! "SET", false, e'⟩, ⟨goifyName u (ref n), true, .ident (goifyName u (ref n) ++ c! "SET")⟩])
  | value (n : Str) (t t' e : GoExpr) : ExprRenamed ref ident u t t' →
      DeclRenamed (.var [⟨c! "Val" ++ goifyName u n, t, e⟩]) (.var [⟨c! "Val" ++ goifyName u (ref n), t', e⟩])
  | numbers (n : Str) (l l' : List GoValueSpec) : List.Forall₂ (NumberSpecRenamed ref ident u n) l l' → DeclRenamed (.var l) (.var l')
  | imp (p : Str) : DeclRenamed (.imp p) (.imp p)

/-- The same for errors. -/
inductive ErrRenamed : GenErr → GenErr → Prop
  | unknownIntMode (r : Str) : ErrRenamed (.unknownIntMode r) (.unknownIntMode r)
  | unsupported : ErrRenamed .unsupported .unsupported
  | foreignValue (m m' n : Str) : ErrRenamed (.foreignValue m n) (.foreignValue m' (ref n))
  | componentsOf : ErrRenamed .componentsOf .componentsOf
  | automaticTags (n : Str) : ErrRenamed (.automaticTags n) (.automaticTags (ident n))
  | tagNotNumber : ErrRenamed .tagNotNumber .tagNotNumber
  | unresolved (n : Str) : ErrRenamed (.unresolved n) (.unresolved (ref n))

/-- The same for what `Generate` gives. -/
inductive ResultRenamed : Except GenError GoFile → Except GenError GoFile → Prop
  | ok (p p' : Str) (l l' : List GoDecl) : List.Forall₂ (DeclRenamed ref ident u) l l' → ResultRenamed (.ok ⟨p, l⟩) (.ok ⟨p', l'⟩)
  | automatic : ResultRenamed (.error .automatic) (.error .automatic)
  | translation (l l' : List GenErr) : List.Forall₂ (ErrRenamed ref ident) l l' → ResultRenamed (.error (.translation l)) (.error (.translation l'))

end Asn1go.Spec
