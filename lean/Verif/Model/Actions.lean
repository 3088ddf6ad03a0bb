import Verif.Model.Ast

/-! Model of `yySymType` (/repo/y.go:15-73) and of the semantic actions (/repo/y.go:1061-2241, which are the
actions of /repo/asn1.y:334-1055). -/

namespace Asn1go

/-- y.go:15-73 `yySymType`.  The fields `SequenceType` and `SequenceOfType` are never assigned nor read and are
dropped.  `Exclusions` is represented by the `Elements` it holds. -/
structure SymType (R D : Type) where
  yys : Nat := 0
  name : Str := []
  numberRepr : Str := []
  number : Int := 0
  real : GoReal := .lit 0 0 0
  tagDefault : Int := 0
  extensionDefault : Bool := false
  moduleIdentifier : ModuleIdentifier := {}
  definitiveObjIdComponent : DefinitiveObjIdComponent := {}
  definitiveObjIdComponentList : List DefinitiveObjIdComponent := []
  definitiveIdentifier : List DefinitiveObjIdComponent := []
  type : Ty R D := .nil
  objectIdElement : ObjectIdElement R := {}
  definedValue : DefinedValue := {}
  objectIdentifierValue : List (ObjectIdElement R) := []
  value : Value R := .nil
  assignment : Assignment R D := .nil
  assignmentList : List (Assignment R D) := []
  moduleBody : ModuleBody R D := {}
  valueReference : Str := []
  typeReference : Str := []
  constraint : Constraint R D := .mk .nil
  constraintSpec : ConstraintSpec R D := .nil
  elementSetSpec : Elements R D := .nil
  unions : List (List (IntersectionElements R D)) := []
  intersections : List (IntersectionElements R D) := []
  intersectionElements : IntersectionElements R D := .mk .nil .nil
  exclusions : Elements R D := .nil
  elements : Elements R D := .nil
  subtypeConstraint : List (Elements R D) := []
  rangeEndpoint : RangeEndpoint R := {}
  namedType : NamedType R D := .mk [] .nil
  componentType : ComponentType R D := .nil
  componentTypeLists : ComponentTypeLists R D := {}
  componentTypeList : List (ComponentType R D) := []
  tag : Tag R := {}
  cls : Int := 0
  namedBitList : List (NamedBit R) := []
  namedBit : NamedBit R := {}
  imports : List (SymbolsFromModule R) := []
  symbolsFromModule : SymbolsFromModule R := {}
  symbolList : List Symbol := []
  symbol : Symbol := .nil
  globalModuleReference : GlobalModuleReference R := {}
  alternativeTypeList : List (NamedType R D) := []
  choiceType : List (NamedType R D) × List (Ty R D) := ([], [])
  extensionAdditionAlternative : Ty R D := .nil
  extensionAdditionAlternativesList : List (Ty R D) := []
  extensionAdditions : List (ComponentType R D) := []
  namedNumberList : List NamedNumber := []
  namedNumber : NamedNumber := {}
  enumeratedType : List EnumerationItem × List EnumerationItem := ([], [])
  enumeration : List EnumerationItem := []
  enumerationItem : EnumerationItem := .nil

/-- The pointers an action can take: `&yyDollar[3].Value` (y.go:1673), `&yyDollar[2].DefinedValue` (y.go:1877) and
`&cpy` for a fresh copy (y.go:1901-1902, 1914-1915). -/
structure Pointers (R D : Type) where
  value3 : D
  defined2 : R
  copy : DefinedValue → R

variable {R D : Type}

/-- y.go:1061-2241: the `switch yynt`, for all cases but the effect of case 1 on the lexer.  `d i` is
`yyDollar[i]`, `v` is `yyVAL` before the action (a copy of `yyS[yyp+1]`, y.go:1045).  Cases absent from the
switch leave `yyVAL` alone.  `-int(n)` (rules 93, 118) cannot overflow because a lexed number is never
negative. -/
def action (n : Nat) (p : Pointers R D) (d : Nat → SymType R D) (v : SymType R D) : SymType R D :=
  match n with
  | 2 => { v with typeReference := (d 1).name }
  | 4 => { v with valueReference := (d 1).name }
  | 7 => { v with moduleIdentifier := { reference := (d 1).name, definitiveIdentifier := (d 2).definitiveIdentifier } }
  | 8 => { v with definitiveIdentifier := (d 2).definitiveObjIdComponentList }
  | 9 => { v with definitiveIdentifier := [] }
  | 10 => { v with definitiveObjIdComponentList := [(d 1).definitiveObjIdComponent] }
  | 11 => { v with definitiveObjIdComponentList :=
              (d 1).definitiveObjIdComponent :: (d 2).definitiveObjIdComponentList }
  | 12 => { v with definitiveObjIdComponent := { name := (d 1).name } }
  | 13 => { v with definitiveObjIdComponent := { id := (d 1).number } }
  | 14 => { v with definitiveObjIdComponent := (d 1).definitiveObjIdComponent }
  | 15 => { v with number := (d 1).number }
  | 16 => { v with definitiveObjIdComponent := { name := (d 1).name, id := (d 3).number } }
  | 17 => { v with tagDefault := TAGS_EXPLICIT }
  | 18 => { v with tagDefault := TAGS_IMPLICIT }
  | 19 => { v with tagDefault := TAGS_AUTOMATIC }
  | 20 => { v with tagDefault := TAGS_EXPLICIT }
  | 21 => { v with extensionDefault := true }
  | 22 => { v with extensionDefault := false }
  | 23 => { v with moduleBody := { imports := (d 2).imports, assignmentList := (d 3).assignmentList } }
  | 24 => { v with moduleBody := {} }
  | 30 => { v with imports := (d 2).imports }
  | 31 => { v with imports := [] }
  | 32 => { v with imports := (d 1).imports }
  | 33 => { v with imports := [] }
  | 34 => { v with imports := [(d 1).symbolsFromModule] }
  | 35 => { v with imports := (d 1).imports ++ [(d 2).symbolsFromModule] }
  | 36 => { v with symbolsFromModule := ⟨(d 1).symbolList, (d 3).globalModuleReference⟩ }
  | 37 => { v with globalModuleReference := ⟨(d 1).name, (d 2).value⟩ }
  | 38 => { v with value := .objectIdentifier (d 1).objectIdentifierValue }
  | 39 => { v with value := .defined (d 1).definedValue }
  | 40 => { v with value := .nil }
  | 41 => { v with symbolList := [(d 1).symbol] }
  | 42 => { v with symbolList := (d 1).symbolList ++ [(d 3).symbol] }
  | 44 => { v with symbol := .typeReference (d 1).typeReference }
  | 45 => { v with symbol := .moduleReference (d 1).name }
  | 46 => { v with symbol := .valueReference (d 1).valueReference }
  | 47 => { v with assignmentList := [(d 1).assignment] }
  | 48 => { v with assignmentList := (d 1).assignmentList ++ [(d 2).assignment] }
  | 51 => { v with type := .ref (d 1).typeReference }
  | 52 => { v with definedValue := ⟨(d 1).name, (d 3).valueReference⟩ }
  | 53 => { v with definedValue := { valueName := (d 1).valueReference } }
  | 54 => { v with assignment := .type (d 1).typeReference (d 3).type }
  | 55 => { v with assignment := .value (d 1).valueReference (d 2).type (d 4).value }
  | 77 => { v with namedType := .mk (d 1).name (d 2).type }
  | 81 => { v with value := .objectIdentifier (d 1).objectIdentifierValue }
  | 83 => { v with type := .boolean }
  | 84 => { v with value := .boolean true }
  | 85 => { v with value := .boolean false }
  | 86 => { v with type := .integer [] }
  | 87 => { v with type := .integer (d 3).namedNumberList }
  | 88 => { v with namedNumberList := [(d 1).namedNumber] }
  | 89 => { v with namedNumberList := (d 1).namedNumberList ++ [(d 3).namedNumber] }
  | 90 => { v with namedNumber := ⟨(d 1).name, .number (d 3).number⟩ }
  | 91 => { v with namedNumber := ⟨(d 1).name, .defined (d 3).definedValue⟩ }
  | 92 => { v with number := (d 1).number }
  | 93 => { v with number := - (d 2).number }
  | 94 => { v with value := .number (d 1).number }
  | 95 => { v with value := .identifiedInteger (d 1).name }
  | 96 => { v with type := .enumerated (d 3).enumeratedType.1 (d 3).enumeratedType.2 }
  | 97 => { v with enumeratedType := ((d 1).enumeration, []) }
  | 98 => { v with enumeratedType := ((d 1).enumeration, []) }
  | 99 => { v with enumeratedType := ((d 1).enumeration, (d 6).enumeration) }
  | 102 => { v with enumeration := [(d 1).enumerationItem] }
  | 103 => { v with enumeration := (d 1).enumerationItem :: (d 3).enumeration }
  | 104 => { v with enumerationItem := .namedNumber (d 1).namedNumber }
  | 105 => { v with enumerationItem := .identifier (d 1).name }
  | 106 => { v with type := .real }
  | 109 => { v with value := .real (d 1).real }
  | 110 => { v with value := .real (.neg (d 2).real) }
  | 111 => { v with value := .real .posInf }
  | 112 => { v with value := .real .negInf }
  | 113 => { v with real := .lit (d 1).number 0 0 }
  | 114 => { v with real := .lit (d 1).number (d 3).number 0 }
  | 115 => { v with real := .lit (d 1).number (d 3).number (d 5).number }
  | 116 => { v with real := .lit (d 1).number 0 (d 3).number }
  | 118 => { v with number := - (d 2).number }
  | 119 => { v with type := .bitString [] }
  | 120 => { v with type := .bitString (d 4).namedBitList }
  | 121 => { v with namedBitList := [(d 1).namedBit] }
  | 122 => { v with namedBitList := (d 1).namedBitList ++ [(d 3).namedBit] }
  | 123 => { v with namedBit := ⟨(d 1).name, .number (d 3).number⟩ }
  | 124 => { v with namedBit := ⟨(d 1).name, .defined (d 3).definedValue⟩ }
  | 125 => { v with type := .octetString }
  | 126 => { v with type := .null }
  | 127 => { v with type := .sequence [] [] }
  | 128 => { v with type := .sequence [] [] }
  | 129 => { v with type := .sequence ((d 3).componentTypeLists.components ++
                             (d 3).componentTypeLists.trailingComponents) (d 3).componentTypeLists.extensionAdditions }
  | 134 => { v with componentTypeLists := { components := (d 1).componentTypeList } }
  | 135 => { v with componentTypeLists := { components := (d 1).componentTypeList,
                                            extensionAdditions := (d 4).extensionAdditions } }
  | 136 => { v with componentTypeLists := ⟨(d 1).componentTypeList, (d 4).extensionAdditions,
                                            (d 7).componentTypeList⟩ }
  | 139 => { v with extensionAdditions := (d 2).extensionAdditions }
  | 140 => { v with extensionAdditions := [] }
  | 141 => { v with extensionAdditions := (d 1).extensionAdditions }
  | 142 => { v with extensionAdditions := (d 1).extensionAdditions ++ (d 3).extensionAdditions }
  | 143 => { v with extensionAdditions := [(d 1).componentType] }
  | 144 => { v with extensionAdditions := [] }
  | 148 => { v with componentTypeList := [(d 1).componentType] }
  | 149 => { v with componentTypeList := (d 1).componentTypeList ++ [(d 3).componentType] }
  | 150 => { v with componentType := .named (d 1).namedType false none }
  | 151 => { v with componentType := .named (d 1).namedType true none }
  | 152 => { v with componentType := .named (d 1).namedType false (some p.value3) }
  | 153 => { v with componentType := .componentsOf (d 3).type }
  | 154 => { v with type := .set [] [] }
  | 155 => { v with type := .set [] [] }
  | 156 => { v with type := .set ((d 3).componentTypeLists.components ++
                             (d 3).componentTypeLists.trailingComponents) (d 3).componentTypeLists.extensionAdditions }
  | 157 => { v with type := .setOf (d 3).type }
  | 158 => { v with type := .setOf (.named (d 3).namedType) }
  | 159 => { v with type := .any [] }
  | 160 => { v with type := .any (d 4).name }
  | 161 => { v with type := .choice (d 3).choiceType.1 (d 3).choiceType.2 }
  | 162 => { v with choiceType := ((d 1).alternativeTypeList, (d 4).extensionAdditionAlternativesList) }
  | 163 => { v with choiceType := ((d 1).alternativeTypeList, []) }
  | 164 => { v with choiceType := ([], (d 2).extensionAdditionAlternativesList) }
  | 166 => { v with extensionAdditionAlternativesList := (d 2).extensionAdditionAlternativesList }
  | 167 => { v with extensionAdditionAlternativesList := [] }
  | 168 => { v with extensionAdditionAlternativesList := [(d 1).extensionAdditionAlternative] }
  | 169 => { v with extensionAdditionAlternativesList :=
              (d 1).extensionAdditionAlternativesList ++ [(d 3).extensionAdditionAlternative] }
  | 170 => { v with extensionAdditionAlternative := .named (d 1).namedType }
  | 172 => { v with alternativeTypeList := [(d 1).namedType] }
  | 173 => { v with alternativeTypeList := (d 1).alternativeTypeList ++ [(d 3).namedType] }
  | 174 => { v with type := .tagged (d 1).tag (d 2).type 0 false }
  | 175 => { v with type := .tagged (d 1).tag (d 3).type TAGS_IMPLICIT true }
  | 176 => { v with type := .tagged (d 1).tag (d 3).type TAGS_EXPLICIT true }
  | 177 => { v with tag := ⟨(d 2).cls, (d 3).value⟩ }
  | 178 => { v with value := .number (d 1).number }
  | 179 => { v with value := .defined (d 1).definedValue }
  | 180 => { v with cls := CLASS_UNIVERSAL }
  | 181 => { v with cls := CLASS_APPLICATION }
  | 182 => { v with cls := CLASS_PRIVATE }
  | 183 => { v with cls := CLASS_CONTEXT_SPECIFIC }
  | 184 => { v with type := .sequenceOf (d 3).type }
  | 185 => { v with type := .sequenceOf (.named (d 3).namedType) }
  | 186 => { v with type := .objectIdentifier }
  | 187 => { v with objectIdentifierValue := (d 2).objectIdentifierValue }
  | 188 => { v with objectIdentifierValue := { reference := some p.defined2 } :: (d 3).objectIdentifierValue }
  | 189 => { v with objectIdentifierValue := [(d 1).objectIdElement] }
  | 190 => { v with objectIdentifierValue := (d 1).objectIdElement :: (d 2).objectIdentifierValue }
  | 191 => { v with objectIdElement := { name := (d 1).name } }
  | 194 => { v with objectIdElement := { reference := some (p.copy (d 1).definedValue) } }
  | 195 => { v with objectIdElement := { id := (d 1).number } }
  | 196 => { v with objectIdElement := { reference := some (p.copy (d 1).definedValue) } }
  | 197 => { v with objectIdElement := ⟨(d 1).name, (d 3).objectIdElement.id, (d 3).objectIdElement.reference⟩ }
  | 201 => { v with type := .restrictedString Tok.BMPString }
  | 202 => { v with type := .restrictedString Tok.GeneralString }
  | 203 => { v with type := .restrictedString Tok.GraphicString }
  | 204 => { v with type := .restrictedString Tok.IA5String }
  | 205 => { v with type := .restrictedString Tok.ISO646String }
  | 206 => { v with type := .restrictedString Tok.NumericString }
  | 207 => { v with type := .restrictedString Tok.PrintableString }
  | 208 => { v with type := .restrictedString Tok.TeletexString }
  | 209 => { v with type := .restrictedString Tok.T61String }
  | 210 => { v with type := .restrictedString Tok.UniversalString }
  | 211 => { v with type := .restrictedString Tok.UTF8String }
  | 212 => { v with type := .restrictedString Tok.VideotexString }
  | 213 => { v with type := .restrictedString Tok.VisibleString }
  | 214 => { v with type := .characterString }
  | 215 => { v with type := .ref (c! "GeneralizedTime") }
  | 216 => { v with type := .ref (c! "UTCTime") }
  | 217 => { v with type := .constrained (d 1).type (d 2).constraint }
  | 219 => { v with type := .constrained (.setOf (d 4).type) (d 2).constraint }
  | 220 => { v with type := .constrained (.setOf (d 4).type) (singleElementConstraint (d 2).elements) }
  | 221 => { v with type := .constrained (.sequenceOf (d 4).type) (d 2).constraint }
  | 222 => { v with type := .constrained (.sequenceOf (d 4).type) (singleElementConstraint (d 2).elements) }
  | 223 => { v with type := .constrained (.setOf (.named (d 4).namedType)) (d 2).constraint }
  | 224 => { v with type := .constrained (.setOf (.named (d 4).namedType)) (singleElementConstraint (d 2).elements) }
  | 225 => { v with type := .constrained (.sequenceOf (.named (d 4).namedType)) (d 2).constraint }
  | 226 => { v with type :=
              .constrained (.sequenceOf (.named (d 4).namedType)) (singleElementConstraint (d 2).elements) }
  | 227 => { v with constraint := .mk (d 2).constraintSpec }
  | 228 => { v with constraintSpec := .subtype (d 1).subtypeConstraint }
  | 231 => { v with subtypeConstraint := (d 1).subtypeConstraint }
  | 232 => { v with subtypeConstraint := (d 1).subtypeConstraint ++ [(d 5).elementSetSpec] }
  | 233 => { v with subtypeConstraint := [(d 1).elementSetSpec] }
  | 235 => { v with elementSetSpec := .unions (d 1).unions }
  | 236 => { v with elementSetSpec := .exclusions (d 2).exclusions }
  | 237 => { v with unions := [(d 1).intersections] }
  | 238 => { v with unions := (d 1).unions ++ [(d 3).intersections] }
  | 240 => { v with intersections := [(d 1).intersectionElements] }
  | 241 => { v with intersections := (d 1).intersections ++ [(d 3).intersectionElements] }
  | 243 => { v with intersectionElements := .mk (d 1).elements .nil }
  | 244 => { v with intersectionElements := .mk (d 1).elements (d 2).exclusions }
  | 246 => { v with exclusions := (d 2).elements }
  | 251 => { v with elements := (d 1).elements }
  | 252 => { v with elements := (d 2).elementSetSpec }
  | 258 => { v with elements := .singleValue (d 1).value }
  | 259 => { v with elements := .valueRange (d 1).rangeEndpoint (d 3).rangeEndpoint }
  | 260 => { v with rangeEndpoint := { value := (d 1).value } }
  | 261 => { v with rangeEndpoint := { value := (d 1).value, isOpen := true } }
  | 262 => { v with rangeEndpoint := { value := (d 1).value } }
  | 263 => { v with rangeEndpoint := { value := (d 2).value, isOpen := true } }
  | 265 => { v with value := .nil }
  | 267 => { v with value := .nil }
  | 268 => { v with elements := .size (d 2).constraint }
  | 269 => { v with elements := .typeConstraint (d 1).type }
  | 270 => { v with elements := .inner }
  | 271 => { v with elements := .inner }
  | _ => v

/-- y.go:1063-1068, the effect of case 1: the result stored in the lexer. -/
def moduleOf (d : Nat → SymType R D) : ModuleDefinition R D :=
  { moduleIdentifier := (d 1).moduleIdentifier
    tagDefault := (d 3).tagDefault
    extensibilityImplied := (d 4).extensionDefault
    moduleBody := (d 7).moduleBody }

end Asn1go
