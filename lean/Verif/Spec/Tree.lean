import Verif.Spec.Grammar
import Verif.Spec.Lexical
import Verif.Model.Actions

/-! Derivation trees of the grammar of asn1.y and their values.

The value of a tree is what the actions written in asn1.y say, computed bottom up: no parser, no stack.
`$$` starts as a copy of `$1` (y.go:1045, the yacc default action) and as the zero struct for empty rules. -/

namespace Asn1go.Spec

open Asn1go

/-- A token with its payload. -/
abbrev Token := Int × Payload

/-- Derivation trees: rules are numbered from 1 in the order of asn1.y. -/
inductive Tree
  | leaf (code : Int) (p : Payload)
  | node (rule : Nat) (kids : List Tree)

mutual

/-- `Derives X toks t`: `t` is a derivation tree of the tokens `toks` from the symbol `X`. -/
inductive Derives : Sym → List Token → Tree → Prop
  | leaf (code : Int) (p : Payload) : Derives (.t code) [(code, p)] (.leaf code p)
  | node (r lhs : Nat) (rhs : List Sym) (toks : List Token) (kids : List Tree) :
      1 ≤ r → rules[r - 1]? = some (lhs, rhs) → DerivesList rhs toks kids → Derives (.n lhs) toks (.node r kids)

/-- Derivations from a list of symbols. -/
inductive DerivesList : List Sym → List Token → List Tree → Prop
  | nil : DerivesList [] [] []
  | cons (X : Sym) (l : List Sym) (a b : List Token) (t : Tree) (ts : List Tree) :
      Derives X a t → DerivesList l b ts → DerivesList (X :: l) (a ++ b) (t :: ts)

end

variable {R D : Type}

/-- The value of a token. -/
def leafValue (p : Payload) : SymType R D :=
  let l := p.apply {}
  { name := l.name, numberRepr := l.numberRepr, number := l.number }

/-- `$i` for a list of values. -/
def dollars (l : List (SymType R D)) (i : Nat) : SymType R D := (l[i - 1]?).getD {}

mutual

/-- The value of a tree; `mk` says what the pointers of an action point to. -/
def Tree.eval (mk : (Nat → SymType R D) → Pointers R D) : Tree → SymType R D
  | .leaf _ p => leafValue p
  | .node r kids =>
    let l := Tree.evalList mk kids
    action r (mk (dollars l)) (dollars l) (l.headD {})

/-- The values of a list of trees. -/
def Tree.evalList (mk : (Nat → SymType R D) → Pointers R D) : List Tree → List (SymType R D)
  | [] => []
  | t :: l => Tree.eval mk t :: Tree.evalList mk l

end

/-- The module of a tree for `ModuleDefinition` (asn1.y:334-344). -/
def Tree.module (mk : (Nat → SymType R D) → Pointers R D) : Tree → ModuleDefinition R D
  | .leaf _ _ => {}
  | .node _ kids => moduleOf (dollars (Tree.evalList mk kids))

/-- What the author of the actions meant the pointers to point to: `&$3` and `&$2` of the rule. -/
def idealPointers (d : Nat → SymType DefinedValue (Value DefinedValue)) : Pointers DefinedValue (Value DefinedValue) :=
  { value3 := (d 3).value, defined2 := (d 2).definedValue, copy := id }

/-- The module meant by a derivation tree. -/
def Tree.ideal (t : Tree) : ModuleDefinition DefinedValue (Value DefinedValue) := t.module idealPointers

/-- An object identifier reference, with the way the parser stores it: as pointer into its own stack, done for the first
component of an object identifier value with several components (rule 188), or as pointer to a copy. -/
inductive Ref
  | onStack (d : DefinedValue)
  | copied (d : DefinedValue)
  deriving DecidableEq, Repr

/-- The value referred to. -/
def Ref.target : Ref → DefinedValue
  | .onStack d => d
  | .copied d => d

/-- The value referred to, if it was copied. -/
def Ref.known : Ref → Option DefinedValue
  | .onStack _ => none
  | .copied d => some d

/-- `idealPointers` with the way pointers are stored. -/
def refPointers (d : Nat → SymType Ref (Value DefinedValue)) : Pointers Ref (Value DefinedValue) :=
  { value3 := (d 3).value.map Ref.target, defined2 := .onStack (d 2).definedValue, copy := .copied }

/-- The value of a tree that marks stored references. -/
def Tree.marked (t : Tree) : ModuleDefinition Ref (Value DefinedValue) := t.module refPointers

end Asn1go.Spec
