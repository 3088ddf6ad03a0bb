import Verif.Spec.Tree

/-! Which derivation tree is meant when the grammar of asn1.y allows several.

The grammar is ambiguous; goyacc resolves the conflicts silently (asn1.y declares no precedences).  Here the choices
are written down as rules about derivation trees, without tables, states or lookahead sets:

* some rules are never used (`neverUsed`);
* some rules are never used at certain places (`notThere`);
* some rules are never used when certain tokens follow (`notBefore`): the longer reading is preferred. -/

namespace Asn1go.Spec

open Asn1go

mutual

/-- The tokens of a tree. -/
def Tree.tokens : Tree → List Token
  | .leaf c p => [(c, p)]
  | .node _ kids => Tree.tokensList kids

/-- The tokens of a list of trees. -/
def Tree.tokensList : List Tree → List Token
  | [] => []
  | t :: l => t.tokens ++ Tree.tokensList l

end

/-- The code of the first token, 0 (the end of the text) if there is none. -/
def firstCode (next : Int) : List Token → Int
  | [] => next
  | (c, _) :: _ => c

/-- Rules never used:
an imported or exported symbol is a type reference, not a module reference (rule 45, asn1.y `Reference`);
a number without fraction and exponent is an integer, not a real number (rule 113, `realnumber`);
a lone name in an object identifier is a reference, not a name form (rule 191, `ObjIdComponents`). -/
def neverUsed : List Nat := [45, 113, 191]

/-- A place in a tree, as far as it matters: at the root or anywhere else (`other`), the component list of an object
identifier value (second child of rule 187), the first of several components of such a list (first child of rule 190), the
child of a component that is a number form (rule 192), the exception after an ellipsis (second child of rule 131). -/
inductive Place
  | other
  | oidList
  | oidHead
  | numberForm
  | exception
  deriving DecidableEq, Repr

/-- The place of child number `i` (from 0) of a node of rule `r` that is itself at place `p`. -/
def Place.child (r : Nat) (p : Place) (i : Nat) : Place :=
  if r = 187 ∧ i = 1 then .oidList
  else if r = 190 ∧ p = .oidList ∧ i = 0 then .oidHead
  else if r = 192 then .numberForm
  else if r = 131 ∧ i = 1 then .exception
  else .other

/-- Rules not used at a place:
a reference that starts an object identifier value with further components is read by rule 188, not as a component
(rule 194);
a reference is not a number form (rule 196) as a component, only inside a name-and-number form;
an ellipsis without exception is read by rule 130, not with an empty exception (rule 288). -/
def notThere : List (Nat × Place) := [(194, .oidHead), (196, .numberForm), (288, .exception)]

/-- Rules not used when one of the tokens follows: the token is read as continuation.
A name after an imported module belongs to the module (rule 40, empty `AssignedIdentifier`);
a comma after an enumeration item or after extension additions continues them (rules 102, 139, 140, 166, 167);
a constraint belongs to the innermost type (rules 77, 157, 174, 175, 176, 184, 219, 220, 221, 222). -/
def notBefore : List (Nat × List Int) := [
  (40, [Tok.TYPEORMODULEREFERENCE, Tok.VALUEIDENTIFIER]),
  (102, [Tok.COMMA]), (139, [Tok.COMMA]), (140, [Tok.COMMA]), (166, [Tok.COMMA]), (167, [Tok.COMMA]),
  (77, [Tok.OPEN_ROUND]), (157, [Tok.OPEN_ROUND]), (174, [Tok.OPEN_ROUND]), (175, [Tok.OPEN_ROUND]),
  (176, [Tok.OPEN_ROUND]), (184, [Tok.OPEN_ROUND]), (219, [Tok.OPEN_ROUND]), (220, [Tok.OPEN_ROUND]),
  (221, [Tok.OPEN_ROUND]), (222, [Tok.OPEN_ROUND])]

/-- A node of rule `r` at place `p` followed by a token of code `next` is the preferred reading. -/
def Allowed (r : Nat) (p : Place) (next : Int) : Prop :=
  r ∉ neverUsed ∧ (r, p) ∉ notThere ∧ ∀ e ∈ notBefore, e.1 = r → next ∉ e.2

instance (r : Nat) (p : Place) (next : Int) : Decidable (Allowed r p next) := by
  unfold Allowed
  exact inferInstance

mutual

/-- All nodes of a tree are preferred readings, for a tree at place `p` followed by a token of code `next`. -/
def Tree.Preferred (p : Place) (next : Int) : Tree → Prop
  | .leaf _ _ => True
  | .node r kids => Allowed r p next ∧ Tree.PreferredList r p next 0 kids

/-- The children of a node of rule `r` from number `i` on. -/
def Tree.PreferredList (r : Nat) (p : Place) (next : Int) (i : Nat) : List Tree → Prop
  | [] => True
  | t :: l => t.Preferred (p.child r i) (firstCode next (Tree.tokensList l)) ∧ Tree.PreferredList r p next (i + 1) l

end

/-- The derivation trees of a module that are meant. -/
def Tree.IsPreferred (t : Tree) : Prop := t.Preferred .other 0

end Asn1go.Spec
