import Verif.Spec.Notation

/-! Lists of imports as they are written, for C26. -/

namespace Asn1go.Spec

open Asn1go Notation

/-- A symbol that is imported. -/
inductive Imported
  | type (s : Str)
  | value (s : Str)

def Imported.token : Imported → Token
  | .type s => upper s
  | .value s => lower s

/-- The identifier after the name of the module imported from, if there is one. -/
inductive Identified
  | none
  /-- `{ 1 2 3 }`, numbers with their spelling. -/
  | numbers (first : Str × Nat) (others : List (Str × Nat))
  /-- `v` -/
  | value (v : Str)
  /-- `M.v` -/
  | ofModule (m v : Str)

def Identified.tokens : Identified → List Token
  | .none => []
  | .numbers x l => kw Tok.OPEN_CURLY :: ((x :: l).map (fun x => num x.1 x.2) ++ [kw Tok.CLOSE_CURLY])
  | .value v => [lower v]
  | .ofModule m v => [upper m, kw Tok.DOT, lower v]

/-- `A, b FROM M {1 2 3}` -/
structure Import where
  first : Imported
  others : List Imported
  module : Str
  identified : Identified

def Import.tokens (x : Import) : List Token :=
  x.first.token :: (x.others.flatMap (fun y => [kw Tok.COMMA, y.token]) ++ kw Tok.FROM :: upper x.module :: x.identified.tokens)

/-- What an import means. -/
def Imported.symbol : Imported → Symbol
  | .type s => .typeReference s
  | .value s => .valueReference s

def Identified.meaning {R : Type} : Identified → Value R
  | .none => .nil
  | .numbers x l => .objectIdentifier ((x :: l).map (fun x => { id := x.2 }))
  | .value v => .defined ⟨[], v⟩
  | .ofModule m v => .defined ⟨m, v⟩

def Import.meaning {R : Type} (x : Import) : SymbolsFromModule R := ⟨(x.first :: x.others).map Imported.symbol, ⟨x.module, x.identified.meaning⟩⟩

/-- `M { 1 2 } DEFINITIONS AUTOMATIC TAGS ::=` -/
inductive HeaderText : List Token → Prop
  | mk (s : Str) (a b d : List Token) (i : List DefinitiveObjIdComponent) (g : Int) (x : Bool) : Notation.IdentifierText a i → TagsText b g →
      ExtensibilityText d x → HeaderText (upper s :: (a ++ kw Tok.DEFINITIONS :: (b ++ (d ++ [kw Tok.ASSIGNMENT]))))

/-- The tokens of a module with imports: header, exports, imports, assignments. -/
def importing (header exports : List Token) (l : List Import) (assignments : List Token) : List Token :=
  header ++ kw Tok.BEGIN :: (exports ++ kw Tok.IMPORTS :: (l.flatMap Import.tokens ++ kw Tok.SEMICOLON :: (assignments ++ [kw Tok.END])))

end Asn1go.Spec
