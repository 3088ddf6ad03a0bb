import Verif.Spec.Tree
import Mathlib.Data.List.Forall2

/-! The shape of a module text: header, body and assignments, in terms of tokens. -/

namespace Asn1go.Spec

open Asn1go

/-- The `TagDefault` of a module header: its tokens and the tag default they mean (ITU-T X.680 clause 13.2). -/
inductive TagDefaultText : List Token → Int → Prop
  | explicit : TagDefaultText [(Tok.EXPLICIT, .none), (Tok.TAGS, .none)] TAGS_EXPLICIT
  | implicit : TagDefaultText [(Tok.IMPLICIT, .none), (Tok.TAGS, .none)] TAGS_IMPLICIT
  | automatic : TagDefaultText [(Tok.AUTOMATIC, .none), (Tok.TAGS, .none)] TAGS_AUTOMATIC
  | absent : TagDefaultText [] TAGS_EXPLICIT

/-- The `ExtensionDefault` of a module header. -/
inductive ExtensionText : List Token → Bool → Prop
  | implied : ExtensionText [(Tok.EXTENSIBILITY, .none), (Tok.IMPLIED, .none)] true
  | absent : ExtensionText [] false

/-- One component of a definitive identifier. -/
inductive IdComponentText : List Token → DefinitiveObjIdComponent → Prop
  | name (w : Str) : IdComponentText [(Tok.VALUEIDENTIFIER, .name w)] ⟨w, 0⟩
  | number (w : Str) (n : Nat) : IdComponentText [(Tok.NUMBER, .number w n)] ⟨[], n⟩
  | both (w : Str) (r : Str) (n : Nat) :
      IdComponentText [(Tok.VALUEIDENTIFIER, .name w), (Tok.OPEN_ROUND, .none), (Tok.NUMBER, .number r n), (Tok.CLOSE_ROUND, .none)] ⟨w, n⟩

/-- The `DefinitiveIdentifier` of a module header. -/
inductive IdentifierText : List Token → List DefinitiveObjIdComponent → Prop
  | absent : IdentifierText [] []
  | present (segs : List (List Token)) (l : List DefinitiveObjIdComponent) : segs ≠ [] → List.Forall₂ IdComponentText segs l →
      IdentifierText ((Tok.OPEN_CURLY, .none) :: segs.flatten ++ [(Tok.CLOSE_CURLY, .none)]) l

/-- The tokens of one assignment, against an entry of the assignment list. -/
inductive AssignmentText {R D : Type} : List Token → Assignment R D → Prop
  | type (n : Str) (body : List Token) (t : Tree) (ty : Ty R D) : Derives (.n NT.Type) body t →
      AssignmentText ((Tok.TYPEORMODULEREFERENCE, .name n) :: (Tok.ASSIGNMENT, .none) :: body) (.type n ty)
  | value (n : Str) (a b : List Token) (t v : Tree) (ty : Ty R D) (val : Value R) : Derives (.n NT.Type) a t → Derives (.n NT.Value) b v →
      AssignmentText ((Tok.VALUEIDENTIFIER, .name n) :: a ++ (Tok.ASSIGNMENT, .none) :: b) (.value n ty val)

/-- The body of a module: exports, imports and the assignments. -/
inductive BodyText {R D : Type} : List Token → List (Assignment R D) → Prop
  | empty : BodyText [] []
  | assignments (ex im : List Token) (te ti : Tree) (segs : List (List Token)) (l : List (Assignment R D)) : segs ≠ [] →
      Derives (.n NT.Exports) ex te → Derives (.n NT.Imports) im ti → List.Forall₂ AssignmentText segs l →
      BodyText (ex ++ im ++ segs.flatten) l

/-- A whole module: `Name {id} DEFINITIONS tags ext ::= BEGIN body END`. -/
inductive ModuleText {R D : Type} : List Token → ModuleDefinition R D → Prop
  | mk (idt td ed body : List Token) (m : ModuleDefinition R D) : IdentifierText idt m.moduleIdentifier.definitiveIdentifier →
      TagDefaultText td m.tagDefault → ExtensionText ed m.extensibilityImplied → BodyText body m.moduleBody.assignmentList →
      ModuleText ((Tok.TYPEORMODULEREFERENCE, .name m.moduleIdentifier.reference) :: idt ++ (Tok.DEFINITIONS, .none) :: td ++ ed ++
        (Tok.ASSIGNMENT, .none) :: (Tok.BEGIN, .none) :: body ++ [(Tok.END, .none)]) m

end Asn1go.Spec
