import Verif.Spec.Tree

/-! The notation for modules: which sequences of tokens stand for which module.

This says in terms of abstract syntax (ast.go) what the notation of asn1.y means, with one inductive predicate per notion
and no reference to derivation trees, rule numbers, actions or the parser.  Words like "followed by" never occur: where the
parser has to decide, the predicates have an index that rules out the readings not chosen.

Differences to the notation of X.680, all found in asn1.y or in the way goyacc resolves its conflicts:
* nothing can follow `...` in an enumeration, nor a second `...` in SEQUENCE, SET and CHOICE (unless nothing else is there);
* an imported module other than the last must have an identifier;
* contents of `[[ ]]` and of exceptions are dropped;
* a number without fraction and exponent is never a REAL value. -/

namespace Asn1go.Spec

open Asn1go

/-- How the pointers of a module are shown: the reference that starts an object identifier value with several components,
other references, and defaults. -/
structure Links (R D : Type) where
  head : DefinedValue → R
  copy : DefinedValue → R
  default : Value R → D

/-- Every pointer shows what is written. -/
def Links.written : Links DefinedValue (Value DefinedValue) := ⟨id, id, id⟩

/-- Every pointer shows what is written, and references that start an object identifier value are marked. -/
def Links.marked : Links Ref (Value DefinedValue) := ⟨.onStack, .copied, Value.map Ref.target⟩

namespace Notation

/-- A keyword or symbol. -/
abbrev kw (code : Int) : Token := (code, .none)

/-- A name that starts with a capital letter. -/
abbrev upper (s : Str) : Token := (Tok.TYPEORMODULEREFERENCE, .name s)

/-- A name that starts with a small letter. -/
abbrev lower (s : Str) : Token := (Tok.VALUEIDENTIFIER, .name s)

/-- A number spelled `r`. -/
abbrev num (r : Str) (n : Nat) : Token := (Tok.NUMBER, .number r n)

/-- `M.v` or `v`. -/
inductive DefinedText : List Token → DefinedValue → Prop
  | ext (m v : Str) : DefinedText [upper m, kw Tok.DOT, lower v] ⟨m, v⟩
  | plain (v : Str) : DefinedText [lower v] ⟨[], v⟩

/-- `5` or `-5`. -/
inductive SignedText : List Token → Int → Prop
  | pos (r : Str) (n : Nat) : SignedText [num r n] n
  | neg (r : Str) (n : Nat) : SignedText [kw Tok.MINUS, num r n] (-n)

/-- `name(5)` or `name(value)`. -/
inductive NamedNumberText : List Token → NamedNumber → Prop
  | number (s : Str) (a : List Token) (n : Int) : SignedText a n →
      NamedNumberText (lower s :: kw Tok.OPEN_ROUND :: (a ++ [kw Tok.CLOSE_ROUND])) ⟨s, .number n⟩
  | defined (s : Str) (a : List Token) (d : DefinedValue) : DefinedText a d →
      NamedNumberText (lower s :: kw Tok.OPEN_ROUND :: (a ++ [kw Tok.CLOSE_ROUND])) ⟨s, .defined d⟩

/-- `a(1), b(2)` -/
inductive NamedNumbersText : List Token → List NamedNumber → Prop
  | one (a : List Token) (x : NamedNumber) : NamedNumberText a x → NamedNumbersText a [x]
  | snoc (a b : List Token) (l : List NamedNumber) (x : NamedNumber) : NamedNumbersText a l → NamedNumberText b x →
      NamedNumbersText (a ++ kw Tok.COMMA :: b) (l ++ [x])

/-- An item of an enumeration. -/
inductive EnumItemText : List Token → EnumerationItem → Prop
  | number (a : List Token) (x : NamedNumber) : NamedNumberText a x → EnumItemText a (.namedNumber x)
  | name (s : Str) : EnumItemText [lower s] (.identifier s)

/-- `a, b(2)` -/
inductive EnumText : List Token → List EnumerationItem → Prop
  | one (a : List Token) (x : EnumerationItem) : EnumItemText a x → EnumText a [x]
  | cons (a b : List Token) (x : EnumerationItem) (l : List EnumerationItem) : EnumItemText a x → EnumText b l →
      EnumText (a ++ kw Tok.COMMA :: b) (x :: l)

/-- `2` or `-2` after `E`. -/
inductive ExponentText : List Token → Int → Prop
  | pos (r : Str) (n : Nat) : ExponentText [num r n] n
  | neg (r : Str) (n : Nat) : ExponentText [kw Tok.MINUS, num r n] (-n)

/-- `1.5`, `1.5E2`, `1E2`. -/
inductive RealText : List Token → GoReal → Prop
  | fraction (r s : Str) (i f : Nat) : RealText [num r i, kw Tok.DOT, num s f] (.lit i f 0)
  | both (r s : Str) (i f : Nat) (a : List Token) (e : Int) : ExponentText a e →
      RealText (num r i :: kw Tok.DOT :: num s f :: kw Tok.EXPONENT :: a) (.lit i f e)
  | exponent (r : Str) (i : Nat) (a : List Token) (e : Int) : ExponentText a e →
      RealText (num r i :: kw Tok.EXPONENT :: a) (.lit i 0 e)

section

variable {R D : Type} (L : Links R D) (simple : Bool)

/-- A number, `name(number)` or `name(value)`. -/
inductive OidElementText : List Token → ObjectIdElement R → Prop
  | number (r : Str) (n : Nat) : OidElementText [num r n] { id := n }
  | nameNumber (s r : Str) (n : Nat) :
      OidElementText [lower s, kw Tok.OPEN_ROUND, num r n, kw Tok.CLOSE_ROUND] { name := s, id := n }
  | nameDefined (s : Str) (a : List Token) (d : DefinedValue) : DefinedText a d →
      OidElementText (lower s :: kw Tok.OPEN_ROUND :: (a ++ [kw Tok.CLOSE_ROUND])) { name := s, reference := some (L.copy d) }

/-- A component of an object identifier value, possibly a value alone. -/
inductive OidComponentText : List Token → ObjectIdElement R → Prop
  | element (a : List Token) (e : ObjectIdElement R) : OidElementText L a e → OidComponentText a e
  | defined (a : List Token) (d : DefinedValue) : DefinedText a d → OidComponentText a { reference := some (L.copy d) }

/-- The components after the first, or the only one. -/
inductive OidComponentsText : List Token → List (ObjectIdElement R) → Prop
  | one (a : List Token) (e : ObjectIdElement R) : OidComponentText L a e → OidComponentsText a [e]
  | cons (a b : List Token) (e : ObjectIdElement R) (l : List (ObjectIdElement R)) : OidComponentText L a e → OidComponentsText b l →
      OidComponentsText (a ++ b) (e :: l)

/-- `{ iso(1) 3 x }` -/
inductive OidText : List Token → List (ObjectIdElement R) → Prop
  | one (a : List Token) (e : ObjectIdElement R) : OidComponentText L a e →
      OidText (kw Tok.OPEN_CURLY :: (a ++ [kw Tok.CLOSE_CURLY])) [e]
  | many (a b : List Token) (e : ObjectIdElement R) (l : List (ObjectIdElement R)) : OidElementText L a e → OidComponentsText L b l →
      OidText (kw Tok.OPEN_CURLY :: (a ++ (b ++ [kw Tok.CLOSE_CURLY]))) (e :: l)
  | head (a b : List Token) (d : DefinedValue) (l : List (ObjectIdElement R)) : simple = false → DefinedText a d → OidComponentsText L b l →
      OidText (kw Tok.OPEN_CURLY :: (a ++ (b ++ [kw Tok.CLOSE_CURLY]))) ({ reference := some (L.head d) } :: l)

/-- Values. -/
inductive ValueText : List Token → Value R → Prop
  | true : ValueText [kw Tok.TRUE] (.boolean Bool.true)
  | false : ValueText [kw Tok.FALSE] (.boolean Bool.false)
  | number (a : List Token) (n : Int) : SignedText a n → ValueText a (.number n)
  | name (s : Str) : ValueText [lower s] (.identifiedInteger s)
  | oid (a : List Token) (l : List (ObjectIdElement R)) : OidText L simple a l → ValueText a (.objectIdentifier l)
  | real (a : List Token) (x : GoReal) : RealText a x → ValueText a (.real x)
  | minusReal (a : List Token) (x : GoReal) : RealText a x → ValueText (kw Tok.MINUS :: a) (.real (.neg x))
  | plusInfinity : ValueText [kw Tok.PLUS_INFINITY] (.real .posInf)
  | minusInfinity : ValueText [kw Tok.MINUS_INFINITY] (.real .negInf)

/-- `bit(5)` or `bit(value)`. -/
inductive NamedBitText : List Token → NamedBit R → Prop
  | number (s r : Str) (n : Nat) : NamedBitText [lower s, kw Tok.OPEN_ROUND, num r n, kw Tok.CLOSE_ROUND] ⟨s, .number n⟩
  | defined (s : Str) (a : List Token) (d : DefinedValue) : DefinedText a d →
      NamedBitText (lower s :: kw Tok.OPEN_ROUND :: (a ++ [kw Tok.CLOSE_ROUND])) ⟨s, .defined d⟩

/-- `a(1), b(2)` -/
inductive NamedBitsText : List Token → List (NamedBit R) → Prop
  | one (a : List Token) (x : NamedBit R) : NamedBitText a x → NamedBitsText a [x]
  | snoc (a b : List Token) (l : List (NamedBit R)) (x : NamedBit R) : NamedBitsText a l → NamedBitText b x →
      NamedBitsText (a ++ kw Tok.COMMA :: b) (l ++ [x])

/-- The class of a tag. -/
inductive ClassText : List Token → Int → Prop
  | universal : ClassText [kw Tok.UNIVERSAL] CLASS_UNIVERSAL
  | application : ClassText [kw Tok.APPLICATION] CLASS_APPLICATION
  | privateClass : ClassText [kw Tok.PRIVATE] CLASS_PRIVATE
  | context : ClassText [] CLASS_CONTEXT_SPECIFIC

/-- `[APPLICATION 5]` or `[v]`. -/
inductive TagText : List Token → Tag R → Prop
  | number (a : List Token) (c : Int) (r : Str) (n : Nat) : ClassText a c →
      TagText (kw Tok.OPEN_SQUARE :: (a ++ [num r n, kw Tok.CLOSE_SQUARE])) ⟨c, .number n⟩
  | defined (a b : List Token) (c : Int) (d : DefinedValue) : ClassText a c → DefinedText b d →
      TagText (kw Tok.OPEN_SQUARE :: (a ++ (b ++ [kw Tok.CLOSE_SQUARE]))) ⟨c, .defined d⟩

/-- The words `IMPLICIT` and `EXPLICIT` after a tag: words, tag type, whether there is one. -/
inductive TaggingText : List Token → Int → Bool → Prop
  | none : TaggingText [] 0 false
  | implicit : TaggingText [kw Tok.IMPLICIT] TAGS_IMPLICIT true
  | explicit : TaggingText [kw Tok.EXPLICIT] TAGS_EXPLICIT true

/-- The restricted character string types. -/
def stringTypes : List Int := [Tok.BMPString, Tok.GeneralString, Tok.GraphicString, Tok.IA5String, Tok.ISO646String,
  Tok.NumericString, Tok.PrintableString, Tok.TeletexString, Tok.T61String, Tok.UniversalString, Tok.UTF8String,
  Tok.VideotexString, Tok.VisibleString]

/-- A lower bound without `<`; `MIN` is no value. -/
inductive LowerText : List Token → Value R → Prop
  | value (a : List Token) (v : Value R) : ValueText L simple a v → LowerText a v
  | min : LowerText [kw Tok.MIN] .nil

/-- An upper bound without `<`; `MAX` is no value. -/
inductive UpperText : List Token → Value R → Prop
  | value (a : List Token) (v : Value R) : ValueText L simple a v → UpperText a v
  | max : UpperText [kw Tok.MAX] .nil

/-- `1..5`, `1<..<5`, `MIN..MAX`. -/
inductive RangeText : List Token → RangeEndpoint R → RangeEndpoint R → Prop
  | closed (a b : List Token) (v w : Value R) : LowerText L simple a v → UpperText L simple b w →
      RangeText (a ++ kw Tok.RANGE_SEPARATOR :: b) ⟨v, false⟩ ⟨w, false⟩
  | openLower (a b : List Token) (v w : Value R) : LowerText L simple a v → UpperText L simple b w →
      RangeText (a ++ kw Tok.LESS :: kw Tok.RANGE_SEPARATOR :: b) ⟨v, true⟩ ⟨w, false⟩
  | openUpper (a b : List Token) (v w : Value R) : LowerText L simple a v → UpperText L simple b w →
      RangeText (a ++ kw Tok.RANGE_SEPARATOR :: kw Tok.LESS :: b) ⟨v, false⟩ ⟨w, true⟩
  | openBoth (a b : List Token) (v w : Value R) : LowerText L simple a v → UpperText L simple b w →
      RangeText (a ++ kw Tok.LESS :: kw Tok.RANGE_SEPARATOR :: kw Tok.LESS :: b) ⟨v, true⟩ ⟨w, true⟩

/-- The words that say whether a component must be there. -/
inductive PresenceText : List Token → Prop
  | present : PresenceText [kw Tok.PRESENT]
  | absent : PresenceText [kw Tok.ABSENT]
  | optional : PresenceText [kw Tok.OPTIONAL]
  | none : PresenceText []

/-- `2:` at the start of `[[ ]]`. -/
inductive VersionText : List Token → Prop
  | none : VersionText []
  | number (r : Str) (n : Nat) : VersionText [num r n, kw Tok.COLON]

mutual

/-- Types.  The index says that a constraint may be put directly after the type: it would not be taken for a constraint of a
part of the type. -/
inductive TypeText : Bool → List Token → Ty R D → Prop
  | boolean (c : Bool) : TypeText c [kw Tok.BOOLEAN] .boolean
  | integer (c : Bool) : TypeText c [kw Tok.INTEGER] (.integer [])
  | integerNames (c : Bool) (a : List Token) (l : List NamedNumber) : NamedNumbersText a l →
      TypeText c (kw Tok.INTEGER :: kw Tok.OPEN_CURLY :: (a ++ [kw Tok.CLOSE_CURLY])) (.integer l)
  | enumerated (c : Bool) (a : List Token) (l : List EnumerationItem) : EnumText a l →
      TypeText c (kw Tok.ENUMERATED :: kw Tok.OPEN_CURLY :: (a ++ [kw Tok.CLOSE_CURLY])) (.enumerated l [])
  | real (c : Bool) : TypeText c [kw Tok.REAL] .real
  | bitString (c : Bool) : TypeText c [kw Tok.BIT, kw Tok.STRING] (.bitString [])
  | bitStringNames (c : Bool) (a : List Token) (l : List (NamedBit R)) : NamedBitsText a l →
      TypeText c (kw Tok.BIT :: kw Tok.STRING :: kw Tok.OPEN_CURLY :: (a ++ [kw Tok.CLOSE_CURLY])) (.bitString l)
  | octetString (c : Bool) : TypeText c [kw Tok.OCTET, kw Tok.STRING] .octetString
  | null (c : Bool) : TypeText c [kw Tok.NULL] .null
  | objectIdentifier (c : Bool) : TypeText c [kw Tok.OBJECT, kw Tok.IDENTIFIER] .objectIdentifier
  | any (c : Bool) : TypeText c [kw Tok.ANY] (.any [])
  | anyDefinedBy (c : Bool) (s : Str) : TypeText c [kw Tok.ANY, kw Tok.DEFINED, kw Tok.BY, lower s] (.any s)
  | string (c : Bool) (code : Int) : code ∈ stringTypes → TypeText c [kw code] (.restrictedString code)
  | characterString (c : Bool) : TypeText c [kw Tok.CHARACTER, kw Tok.STRING] .characterString
  | generalizedTime (c : Bool) : TypeText c [kw Tok.GeneralizedTime] (.ref (c! "GeneralizedTime"))
  | utcTime (c : Bool) : TypeText c [kw Tok.UTCTime] (.ref (c! "UTCTime"))
  | ref (c : Bool) (s : Str) : TypeText c [upper s] (.ref s)
  | choice (c : Bool) (a : List Token) (l : List (NamedType R D)) : NamedTypesText a l →
      TypeText c (kw Tok.CHOICE :: kw Tok.OPEN_CURLY :: (a ++ [kw Tok.CLOSE_CURLY])) (.choice l [])
  | choiceMore (c : Bool) (a b d : List Token) (l : List (NamedType R D)) (e : List (Ty R D)) : NamedTypesText a l → ExceptionText b →
      AlternativesText d e →
      TypeText c (kw Tok.CHOICE :: kw Tok.OPEN_CURLY :: (a ++ kw Tok.COMMA :: kw Tok.ELLIPSIS :: (b ++ (d ++ [kw Tok.CLOSE_CURLY]))))
        (.choice l e)
  | choiceOpen (c : Bool) (b d : List Token) (e : List (Ty R D)) : ExceptionText b → AlternativesText d e →
      TypeText c (kw Tok.CHOICE :: kw Tok.OPEN_CURLY :: kw Tok.ELLIPSIS :: (b ++ (d ++ [kw Tok.CLOSE_CURLY]))) (.choice [] e)
  | sequence (c : Bool) (a : List Token) (l e : List (ComponentType R D)) : BodyText a l e →
      TypeText c (kw Tok.SEQUENCE :: kw Tok.OPEN_CURLY :: (a ++ [kw Tok.CLOSE_CURLY])) (.sequence l e)
  | set (c : Bool) (a : List Token) (l e : List (ComponentType R D)) : BodyText a l e →
      TypeText c (kw Tok.SET :: kw Tok.OPEN_CURLY :: (a ++ [kw Tok.CLOSE_CURLY])) (.set l e)
  | tagged (a b d : List Token) (g : Tag R) (i : Int) (h : Bool) (t : Ty R D) : TagText a g → TaggingText b i h → TypeText false d t →
      TypeText false (a ++ (b ++ d)) (.tagged g t i h)
  | sequenceOf (a : List Token) (t : Ty R D) : ElementTypeText a t → TypeText false (kw Tok.SEQUENCE :: kw Tok.OF :: a) (.sequenceOf t)
  | setOf (a : List Token) (t : Ty R D) : ElementTypeText a t → TypeText false (kw Tok.SET :: kw Tok.OF :: a) (.setOf t)
  | constrained (c : Bool) (a b : List Token) (t : Ty R D) (k : Constraint R D) : TypeText true a t → ConstraintText b k →
      TypeText c (a ++ b) (.constrained t k)
  | constrainedSequenceOf (a b : List Token) (t : Ty R D) (k : Constraint R D) : OfConstraintText a k → ElementTypeText b t →
      TypeText false (kw Tok.SEQUENCE :: (a ++ kw Tok.OF :: b)) (.constrained (.sequenceOf t) k)
  | constrainedSetOf (a b : List Token) (t : Ty R D) (k : Constraint R D) : OfConstraintText a k → ElementTypeText b t →
      TypeText false (kw Tok.SET :: (a ++ kw Tok.OF :: b)) (.constrained (.setOf t) k)

/-- What stands after `OF`: a type, or a name and a type. -/
inductive ElementTypeText : List Token → Ty R D → Prop
  | type (a : List Token) (t : Ty R D) : TypeText false a t → ElementTypeText a t
  | named (a : List Token) (n : NamedType R D) : NamedTypeText a n → ElementTypeText a (.named n)

/-- What stands before `OF`: a constraint or `SIZE` and a constraint. -/
inductive OfConstraintText : List Token → Constraint R D → Prop
  | constraint (a : List Token) (k : Constraint R D) : ConstraintText a k → OfConstraintText a k
  | size (a : List Token) (k : Constraint R D) : ConstraintText a k →
      OfConstraintText (kw Tok.SIZE :: a) (.mk (.subtype [.unions [[.mk (.size k) .nil]]]))

/-- `name Type` -/
inductive NamedTypeText : List Token → NamedType R D → Prop
  | mk (s : Str) (a : List Token) (t : Ty R D) : TypeText false a t → NamedTypeText (lower s :: a) (.mk s t)

/-- `a T, b U` -/
inductive NamedTypesText : List Token → List (NamedType R D) → Prop
  | one (a : List Token) (x : NamedType R D) : NamedTypeText a x → NamedTypesText a [x]
  | snoc (a b : List Token) (l : List (NamedType R D)) (x : NamedType R D) : NamedTypesText a l → NamedTypeText b x →
      NamedTypesText (a ++ kw Tok.COMMA :: b) (l ++ [x])

/-- What follows the ellipsis in a CHOICE. -/
inductive AlternativesText : List Token → List (Ty R D) → Prop
  | none : AlternativesText [] []
  | some (a : List Token) (l : List (NamedType R D)) : NamedTypesText a l → AlternativesText (kw Tok.COMMA :: a) (l.map .named)

/-- A component of a SEQUENCE or SET. -/
inductive ComponentText : List Token → ComponentType R D → Prop
  | required (a : List Token) (n : NamedType R D) : NamedTypeText a n → ComponentText a (.named n false none)
  | optional (a : List Token) (n : NamedType R D) : NamedTypeText a n → ComponentText (a ++ [kw Tok.OPTIONAL]) (.named n true none)
  | default (a b : List Token) (n : NamedType R D) (v : Value R) : simple = false → NamedTypeText a n → ValueText L simple b v →
      ComponentText (a ++ kw Tok.DEFAULT :: b) (.named n false (some (L.default v)))
  | componentsOf (a : List Token) (t : Ty R D) : TypeText false a t → ComponentText (kw Tok.COMPONENTS :: kw Tok.OF :: a) (.componentsOf t)

/-- Components. -/
inductive ComponentsText : List Token → List (ComponentType R D) → Prop
  | one (a : List Token) (x : ComponentType R D) : ComponentText a x → ComponentsText a [x]
  | snoc (a b : List Token) (l : List (ComponentType R D)) (x : ComponentType R D) : ComponentsText a l → ComponentText b x →
      ComponentsText (a ++ kw Tok.COMMA :: b) (l ++ [x])

/-- A component or group of components after the ellipsis; groups are dropped. -/
inductive AdditionText : List Token → List (ComponentType R D) → Prop
  | component (a : List Token) (x : ComponentType R D) : ComponentText a x → AdditionText a [x]
  | group (a b : List Token) (l : List (ComponentType R D)) : VersionText a → ComponentsText b l →
      AdditionText (kw Tok.LEFT_VERSION_BRACKETS :: (a ++ (b ++ [kw Tok.RIGHT_VERSION_BRACKETS]))) []

/-- Components and groups after the ellipsis. -/
inductive AdditionsText : List Token → List (ComponentType R D) → Prop
  | one (a : List Token) (l : List (ComponentType R D)) : AdditionText a l → AdditionsText a l
  | snoc (a b : List Token) (l m : List (ComponentType R D)) : AdditionsText a l → AdditionText b m →
      AdditionsText (a ++ kw Tok.COMMA :: b) (l ++ m)

/-- What stands between the braces of a SEQUENCE or SET: components before and after the ellipsis. -/
inductive BodyText : List Token → List (ComponentType R D) → List (ComponentType R D) → Prop
  | empty : BodyText [] [] []
  | ellipsis (b : List Token) : ExceptionText b → BodyText (kw Tok.ELLIPSIS :: b) [] []
  | twoEllipses (b : List Token) : ExceptionText b → BodyText (kw Tok.ELLIPSIS :: (b ++ [kw Tok.COMMA, kw Tok.ELLIPSIS])) [] []
  | components (a : List Token) (l : List (ComponentType R D)) : ComponentsText a l → BodyText a l []
  | extensible (a b : List Token) (l : List (ComponentType R D)) : ComponentsText a l → ExceptionText b →
      BodyText (a ++ kw Tok.COMMA :: kw Tok.ELLIPSIS :: b) l []
  | extended (a b d : List Token) (l e : List (ComponentType R D)) : ComponentsText a l → ExceptionText b → AdditionsText d e →
      BodyText (a ++ kw Tok.COMMA :: kw Tok.ELLIPSIS :: (b ++ kw Tok.COMMA :: d)) l e

/-- `( … )` -/
inductive ConstraintText : List Token → Constraint R D → Prop
  | mk (a b : List Token) (l : List (Elements R D)) : SetsText a l → ExceptionText b →
      ConstraintText (kw Tok.OPEN_ROUND :: (a ++ (b ++ [kw Tok.CLOSE_ROUND]))) (.mk (.subtype l))

/-- The sets of values of a constraint: the second is the one after the ellipsis. -/
inductive SetsText : List Token → List (Elements R D) → Prop
  | one (a : List Token) (e : Elements R D) : SetText a e → SetsText a [e]
  | extensible (a : List Token) (e : Elements R D) : SetText a e → SetsText (a ++ [kw Tok.COMMA, kw Tok.ELLIPSIS]) [e]
  | extended (a b : List Token) (e f : Elements R D) : SetText a e → SetText b f →
      SetsText (a ++ kw Tok.COMMA :: kw Tok.ELLIPSIS :: kw Tok.COMMA :: b) [e, f]

/-- A set of values. -/
inductive SetText : List Token → Elements R D → Prop
  | unions (a : List Token) (l : List (List (IntersectionElements R D))) : UnionsText a l → SetText a (.unions l)
  | allExcept (a : List Token) (e : Elements R D) : ElementsText a e → SetText (kw Tok.ALL :: kw Tok.EXCEPT :: a) (.exclusions e)

/-- `… | …` -/
inductive UnionsText : List Token → List (List (IntersectionElements R D)) → Prop
  | one (a : List Token) (x : List (IntersectionElements R D)) : IntersectionsText a x → UnionsText a [x]
  | snoc (code : Int) (a b : List Token) (l : List (List (IntersectionElements R D))) (x : List (IntersectionElements R D)) :
      UnionsText a l → code ∈ [Tok.PIPE, Tok.UNION] → IntersectionsText b x → UnionsText (a ++ kw code :: b) (l ++ [x])

/-- `… ^ …` -/
inductive IntersectionsText : List Token → List (IntersectionElements R D) → Prop
  | one (a : List Token) (x : IntersectionElements R D) : ExceptText a x → IntersectionsText a [x]
  | snoc (code : Int) (a b : List Token) (l : List (IntersectionElements R D)) (x : IntersectionElements R D) :
      IntersectionsText a l → code ∈ [Tok.CARET, Tok.INTERSECTION] → ExceptText b x → IntersectionsText (a ++ kw code :: b) (l ++ [x])

/-- `…` or `… EXCEPT …` -/
inductive ExceptText : List Token → IntersectionElements R D → Prop
  | plain (a : List Token) (e : Elements R D) : ElementsText a e → ExceptText a (.mk e .nil)
  | except (a b : List Token) (e f : Elements R D) : ElementsText a e → ElementsText b f → ExceptText (a ++ kw Tok.EXCEPT :: b) (.mk e f)

/-- What sets of values are made of. -/
inductive ElementsText : List Token → Elements R D → Prop
  | value (a : List Token) (v : Value R) : ValueText L simple a v → ElementsText a (.singleValue v)
  | range (a : List Token) (v w : RangeEndpoint R) : RangeText L simple a v w → ElementsText a (.valueRange v w)
  | size (a : List Token) (k : Constraint R D) : ConstraintText a k → ElementsText (kw Tok.SIZE :: a) (.size k)
  | type (a : List Token) (t : Ty R D) : TypeText false a t → ElementsText a (.typeConstraint t)
  | component (a : List Token) (k : Constraint R D) : ConstraintText a k → ElementsText (kw Tok.WITH :: kw Tok.COMPONENT :: a) .inner
  | components (a : List Token) : InnerText a →
      ElementsText (kw Tok.WITH :: kw Tok.COMPONENTS :: kw Tok.OPEN_CURLY :: (a ++ [kw Tok.CLOSE_CURLY])) .inner
  | someComponents (a : List Token) : InnerText a →
      ElementsText (kw Tok.WITH :: kw Tok.COMPONENTS :: kw Tok.OPEN_CURLY :: kw Tok.ELLIPSIS :: kw Tok.COMMA ::
        (a ++ [kw Tok.CLOSE_CURLY])) .inner
  | parentheses (a : List Token) (e : Elements R D) : SetText a e → ElementsText (kw Tok.OPEN_ROUND :: (a ++ [kw Tok.CLOSE_ROUND])) e

/-- `a (…) PRESENT, b ABSENT`: nothing of it is kept. -/
inductive InnerText : List Token → Prop
  | one (a : List Token) : NamedConstraintText a → InnerText a
  | cons (a b : List Token) : NamedConstraintText a → InnerText b → InnerText (a ++ kw Tok.COMMA :: b)

/-- `a (…) PRESENT` -/
inductive NamedConstraintText : List Token → Prop
  | presence (s : Str) (a : List Token) : PresenceText a → NamedConstraintText (lower s :: a)
  | constraint (s : Str) (a b : List Token) (k : Constraint R D) : ConstraintText a k → PresenceText b →
      NamedConstraintText (lower s :: (a ++ b))

/-- An exception or nothing; it is not kept. -/
inductive ExceptionText : List Token → Prop
  | none : ExceptionText []
  | number (a : List Token) (n : Int) : SignedText a n → ExceptionText (kw Tok.EXCLAMATION :: a)
  | defined (a : List Token) (d : DefinedValue) : DefinedText a d → ExceptionText (kw Tok.EXCLAMATION :: a)
  | typed (a b : List Token) (t : Ty R D) (v : Value R) : TypeText false a t → ValueText L simple b v →
      ExceptionText (kw Tok.EXCLAMATION :: (a ++ kw Tok.COLON :: b))

end

/-- `T ::= INTEGER` or `v INTEGER ::= 5`. -/
inductive AssignmentText : List Token → Assignment R D → Prop
  | type (s : Str) (a : List Token) (t : Ty R D) : TypeText L simple false a t →
      AssignmentText (upper s :: kw Tok.ASSIGNMENT :: a) (.type s t)
  | value (s : Str) (a b : List Token) (t : Ty R D) (v : Value R) : TypeText L simple false a t → ValueText L simple b v →
      AssignmentText (lower s :: (a ++ kw Tok.ASSIGNMENT :: b)) (.value s t v)

/-- Assignments, at least one. -/
inductive AssignmentsText : List Token → List (Assignment R D) → Prop
  | one (a : List Token) (x : Assignment R D) : AssignmentText L simple a x → AssignmentsText a [x]
  | snoc (a b : List Token) (l : List (Assignment R D)) (x : Assignment R D) : AssignmentsText a l → AssignmentText L simple b x →
      AssignmentsText (a ++ b) (l ++ [x])

/-- A symbol exported or imported. -/
inductive SymbolText : List Token → Symbol → Prop
  | type (s : Str) : SymbolText [upper s] (.typeReference s)
  | value (s : Str) : SymbolText [lower s] (.valueReference s)

/-- Symbols, at least one. -/
inductive SymbolsText : List Token → List Symbol → Prop
  | one (a : List Token) (x : Symbol) : SymbolText a x → SymbolsText a [x]
  | snoc (a b : List Token) (l : List Symbol) (x : Symbol) : SymbolsText a l → SymbolText b x →
      SymbolsText (a ++ kw Tok.COMMA :: b) (l ++ [x])

/-- `A, b FROM M {1 2}`; the index says that there is an identifier after the module name. -/
inductive FromText : Bool → List Token → SymbolsFromModule R → Prop
  | oid (c : Bool) (a b : List Token) (l : List Symbol) (s : Str) (o : List (ObjectIdElement R)) : SymbolsText a l → OidText L simple b o →
      FromText c (a ++ kw Tok.FROM :: upper s :: b) ⟨l, ⟨s, .objectIdentifier o⟩⟩
  | defined (c : Bool) (a b : List Token) (l : List Symbol) (s : Str) (d : DefinedValue) : SymbolsText a l → DefinedText b d →
      FromText c (a ++ kw Tok.FROM :: upper s :: b) ⟨l, ⟨s, .defined d⟩⟩
  | none (a : List Token) (l : List Symbol) (s : Str) : SymbolsText a l →
      FromText false (a ++ [kw Tok.FROM, upper s]) ⟨l, ⟨s, .nil⟩⟩

/-- Imports from modules, at least one; the index says that there is an identifier after the last module name.  All others
have one. -/
inductive FromsText : Bool → List Token → List (SymbolsFromModule R) → Prop
  | one (c : Bool) (a : List Token) (x : SymbolsFromModule R) : FromText L simple c a x → FromsText c a [x]
  | snoc (c : Bool) (a b : List Token) (l : List (SymbolsFromModule R)) (x : SymbolsFromModule R) : FromsText true a l →
      FromText L simple c b x → FromsText c (a ++ b) (l ++ [x])

/-- Exports; they are not kept. -/
inductive ExportsText : List Token → Prop
  | none : ExportsText []
  | all : ExportsText [kw Tok.EXPORTS, kw Tok.ALL, kw Tok.SEMICOLON]
  | empty : ExportsText [kw Tok.EXPORTS, kw Tok.SEMICOLON]
  | symbols (a : List Token) (l : List Symbol) : SymbolsText a l → ExportsText (kw Tok.EXPORTS :: (a ++ [kw Tok.SEMICOLON]))

/-- Imports. -/
inductive ImportsText : List Token → List (SymbolsFromModule R) → Prop
  | none : ImportsText [] []
  | empty : ImportsText [kw Tok.IMPORTS, kw Tok.SEMICOLON] []
  | some (a : List Token) (l : List (SymbolsFromModule R)) : FromsText L simple false a l →
      ImportsText (kw Tok.IMPORTS :: (a ++ [kw Tok.SEMICOLON])) l

/-- What stands between `BEGIN` and `END`: nothing, or something with at least one assignment. -/
inductive ModuleBodyText : List Token → ModuleBody R D → Prop
  | empty : ModuleBodyText [] {}
  | some (a b d : List Token) (i : List (SymbolsFromModule R)) (l : List (Assignment R D)) : ExportsText a → ImportsText L simple b i →
      AssignmentsText L simple d l → ModuleBodyText (a ++ (b ++ d)) { imports := i, assignmentList := l }

/-- A component of the identifier of a module. -/
inductive DefinitiveText : List Token → DefinitiveObjIdComponent → Prop
  | name (s : Str) : DefinitiveText [lower s] { name := s }
  | number (r : Str) (n : Nat) : DefinitiveText [num r n] { id := n }
  | both (s r : Str) (n : Nat) : DefinitiveText [lower s, kw Tok.OPEN_ROUND, num r n, kw Tok.CLOSE_ROUND] ⟨s, n⟩

/-- The components of the identifier of a module. -/
inductive DefinitivesText : List Token → List DefinitiveObjIdComponent → Prop
  | one (a : List Token) (x : DefinitiveObjIdComponent) : DefinitiveText a x → DefinitivesText a [x]
  | cons (a b : List Token) (x : DefinitiveObjIdComponent) (l : List DefinitiveObjIdComponent) : DefinitiveText a x → DefinitivesText b l →
      DefinitivesText (a ++ b) (x :: l)

/-- The identifier of a module, if there is one. -/
inductive IdentifierText : List Token → List DefinitiveObjIdComponent → Prop
  | none : IdentifierText [] []
  | some (a : List Token) (l : List DefinitiveObjIdComponent) : DefinitivesText a l →
      IdentifierText (kw Tok.OPEN_CURLY :: (a ++ [kw Tok.CLOSE_CURLY])) l

/-- The tagging of a module. -/
inductive TagsText : List Token → Int → Prop
  | explicit : TagsText [kw Tok.EXPLICIT, kw Tok.TAGS] TAGS_EXPLICIT
  | implicit : TagsText [kw Tok.IMPLICIT, kw Tok.TAGS] TAGS_IMPLICIT
  | automatic : TagsText [kw Tok.AUTOMATIC, kw Tok.TAGS] TAGS_AUTOMATIC
  | none : TagsText [] TAGS_EXPLICIT

/-- Whether extensibility is implied. -/
inductive ExtensibilityText : List Token → Bool → Prop
  | implied : ExtensibilityText [kw Tok.EXTENSIBILITY, kw Tok.IMPLIED] true
  | none : ExtensibilityText [] false

/-- Modules.  `L` says how pointers are shown; `simple` says that there is no `DEFAULT` and no object identifier value with
several components that starts with a value. -/
inductive ModuleText : List Token → ModuleDefinition R D → Prop
  | mk (s : Str) (a b d e : List Token) (i : List DefinitiveObjIdComponent) (g : Int) (x : Bool) (m : ModuleBody R D) :
      IdentifierText a i → TagsText b g → ExtensibilityText d x → ModuleBodyText L simple e m →
      ModuleText (upper s :: (a ++ kw Tok.DEFINITIONS :: (b ++ (d ++ kw Tok.ASSIGNMENT :: kw Tok.BEGIN :: (e ++ [kw Tok.END])))))
        { moduleIdentifier := ⟨s, i⟩, tagDefault := g, extensibilityImplied := x, moduleBody := m }

end

end Notation

end Asn1go.Spec
