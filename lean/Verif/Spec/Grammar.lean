import Verif.Model.Tokens

/-! Generated by /verif/tools/gen_tables.py: the context-free grammar of /repo/asn1.y (lines 334-1055), rules in
file order.  Rule number `i` of the file is entry `i - 1`. -/

namespace Asn1go.Spec

/-- A grammar symbol: a token (by the code the lexer returns) or a nonterminal. -/
inductive Sym
  | t (code : Int)
  | n (nt : Nat)
  deriving DecidableEq, Repr

/-- The nonterminals, numbered as goyacc does: `%type` declarations first (see yyR1, y.go). -/
def nonterminals : List String := [
  "$accept", "realnumber", "SignedExponent", "modulereference", "typereference", "identifier",
  "ExtensionDefault", "TagDefault", "ModuleIdentifier", "DefinitiveObjIdComponent", "DefinitiveNumberForm", "DefinitiveObjIdComponentList",
  "DefinitiveNameAndNumberForm", "DefinitiveIdentifier", "NameForm", "DefinedValue", "ObjectIdentifierType", "IntegerType",
  "BooleanType", "BuiltinType", "Type", "NullType", "EnumeratedType", "AnyType",
  "NamedType", "NumberForm", "NameAndNumberForm", "ObjIdComponents", "ObjIdComponentsList", "ObjectIdentifierValue",
  "BuiltinValue", "Value", "IntegerValue", "RealType", "RealValue", "BooleanValue",
  "NumericRealValue", "SpecialRealValue", "SignedNumber", "number", "Assignment", "ValueAssignment",
  "TypeAssignment", "AssignmentList", "ModuleBody", "valuereference", "ConstrainedType", "TypeWithConstraint",
  "Constraint", "ConstraintSpec", "SubtypeConstraint", "ElementSetSpecs", "RootElementSetSpec", "AdditionalElementSetSpec",
  "ElementSetSpec", "Unions", "UElems", "Intersections", "IElems", "IntersectionElements",
  "Exclusions", "Elements", "Elems", "SingleValue", "ValueRange", "SubtypeElements",
  "TypeConstraint", "InnerTypeConstraints", "SizeConstraint", "LowerEndpoint", "UpperEndpoint", "LowerEndValue",
  "UpperEndValue", "CharacterStringType", "RestrictedCharacterStringType", "UnrestrictedCharacterStringType", "DefinedType", "ReferencedType",
  "SequenceType", "SequenceOfType", "SetType", "SetOfType", "ComponentType", "ComponentTypeList",
  "RootComponentTypeList", "ComponentTypeLists", "TaggedType", "Tag", "ClassNumber", "Class",
  "UsefulType", "OctetStringType", "BitStringType", "NamedBitList", "NamedBit", "Imports",
  "SymbolsImported", "SymbolsFromModuleList", "SymbolsFromModule", "SymbolList", "Symbol", "Reference",
  "AssignedIdentifier", "GlobalModuleReference", "ChoiceType", "AlternativeTypeLists", "AlternativeTypeList", "RootAlternativeTypeList",
  "ExtensionAdditionAlternative", "ExtensionAdditionAlternatives", "ExtensionAdditionAlternativesList", "ExtensionAdditions", "ExtensionAdditionList", "ExtensionAddition",
  "NamedNumber", "NamedNumberList", "Enumerations", "Enumeration", "RootEnumeration", "AdditionalEnumeration",
  "EnumerationItem", "ModuleDefinition", "Exports", "SymbolsExported", "ExceptionSpec", "ExtensionAndException",
  "OptionalExtensionMarker", "ExtensionEndMarker", "ExtensionAdditionGroup", "VersionNumber", "ExtensionAdditionAlternativesGroup", "UnionMark",
  "IntersectionMark", "SingleTypeConstraint", "MultipleTypeConstraints", "FullSpecification", "PartialSpecification", "TypeConstraints",
  "NamedConstraint", "ComponentConstraint", "ValueConstraint", "PresenceConstraint", "ExceptionIdentification"]

namespace NT
abbrev «$accept» : Nat := 0
abbrev «realnumber» : Nat := 1
abbrev «SignedExponent» : Nat := 2
abbrev «modulereference» : Nat := 3
abbrev «typereference» : Nat := 4
abbrev «identifier» : Nat := 5
abbrev «ExtensionDefault» : Nat := 6
abbrev «TagDefault» : Nat := 7
abbrev «ModuleIdentifier» : Nat := 8
abbrev «DefinitiveObjIdComponent» : Nat := 9
abbrev «DefinitiveNumberForm» : Nat := 10
abbrev «DefinitiveObjIdComponentList» : Nat := 11
abbrev «DefinitiveNameAndNumberForm» : Nat := 12
abbrev «DefinitiveIdentifier» : Nat := 13
abbrev «NameForm» : Nat := 14
abbrev «DefinedValue» : Nat := 15
abbrev «ObjectIdentifierType» : Nat := 16
abbrev «IntegerType» : Nat := 17
abbrev «BooleanType» : Nat := 18
abbrev «BuiltinType» : Nat := 19
abbrev «Type» : Nat := 20
abbrev «NullType» : Nat := 21
abbrev «EnumeratedType» : Nat := 22
abbrev «AnyType» : Nat := 23
abbrev «NamedType» : Nat := 24
abbrev «NumberForm» : Nat := 25
abbrev «NameAndNumberForm» : Nat := 26
abbrev «ObjIdComponents» : Nat := 27
abbrev «ObjIdComponentsList» : Nat := 28
abbrev «ObjectIdentifierValue» : Nat := 29
abbrev «BuiltinValue» : Nat := 30
abbrev «Value» : Nat := 31
abbrev «IntegerValue» : Nat := 32
abbrev «RealType» : Nat := 33
abbrev «RealValue» : Nat := 34
abbrev «BooleanValue» : Nat := 35
abbrev «NumericRealValue» : Nat := 36
abbrev «SpecialRealValue» : Nat := 37
abbrev «SignedNumber» : Nat := 38
abbrev «number» : Nat := 39
abbrev «Assignment» : Nat := 40
abbrev «ValueAssignment» : Nat := 41
abbrev «TypeAssignment» : Nat := 42
abbrev «AssignmentList» : Nat := 43
abbrev «ModuleBody» : Nat := 44
abbrev «valuereference» : Nat := 45
abbrev «ConstrainedType» : Nat := 46
abbrev «TypeWithConstraint» : Nat := 47
abbrev «Constraint» : Nat := 48
abbrev «ConstraintSpec» : Nat := 49
abbrev «SubtypeConstraint» : Nat := 50
abbrev «ElementSetSpecs» : Nat := 51
abbrev «RootElementSetSpec» : Nat := 52
abbrev «AdditionalElementSetSpec» : Nat := 53
abbrev «ElementSetSpec» : Nat := 54
abbrev «Unions» : Nat := 55
abbrev «UElems» : Nat := 56
abbrev «Intersections» : Nat := 57
abbrev «IElems» : Nat := 58
abbrev «IntersectionElements» : Nat := 59
abbrev «Exclusions» : Nat := 60
abbrev «Elements» : Nat := 61
abbrev «Elems» : Nat := 62
abbrev «SingleValue» : Nat := 63
abbrev «ValueRange» : Nat := 64
abbrev «SubtypeElements» : Nat := 65
abbrev «TypeConstraint» : Nat := 66
abbrev «InnerTypeConstraints» : Nat := 67
abbrev «SizeConstraint» : Nat := 68
abbrev «LowerEndpoint» : Nat := 69
abbrev «UpperEndpoint» : Nat := 70
abbrev «LowerEndValue» : Nat := 71
abbrev «UpperEndValue» : Nat := 72
abbrev «CharacterStringType» : Nat := 73
abbrev «RestrictedCharacterStringType» : Nat := 74
abbrev «UnrestrictedCharacterStringType» : Nat := 75
abbrev «DefinedType» : Nat := 76
abbrev «ReferencedType» : Nat := 77
abbrev «SequenceType» : Nat := 78
abbrev «SequenceOfType» : Nat := 79
abbrev «SetType» : Nat := 80
abbrev «SetOfType» : Nat := 81
abbrev «ComponentType» : Nat := 82
abbrev «ComponentTypeList» : Nat := 83
abbrev «RootComponentTypeList» : Nat := 84
abbrev «ComponentTypeLists» : Nat := 85
abbrev «TaggedType» : Nat := 86
abbrev «Tag» : Nat := 87
abbrev «ClassNumber» : Nat := 88
abbrev «Class» : Nat := 89
abbrev «UsefulType» : Nat := 90
abbrev «OctetStringType» : Nat := 91
abbrev «BitStringType» : Nat := 92
abbrev «NamedBitList» : Nat := 93
abbrev «NamedBit» : Nat := 94
abbrev «Imports» : Nat := 95
abbrev «SymbolsImported» : Nat := 96
abbrev «SymbolsFromModuleList» : Nat := 97
abbrev «SymbolsFromModule» : Nat := 98
abbrev «SymbolList» : Nat := 99
abbrev «Symbol» : Nat := 100
abbrev «Reference» : Nat := 101
abbrev «AssignedIdentifier» : Nat := 102
abbrev «GlobalModuleReference» : Nat := 103
abbrev «ChoiceType» : Nat := 104
abbrev «AlternativeTypeLists» : Nat := 105
abbrev «AlternativeTypeList» : Nat := 106
abbrev «RootAlternativeTypeList» : Nat := 107
abbrev «ExtensionAdditionAlternative» : Nat := 108
abbrev «ExtensionAdditionAlternatives» : Nat := 109
abbrev «ExtensionAdditionAlternativesList» : Nat := 110
abbrev «ExtensionAdditions» : Nat := 111
abbrev «ExtensionAdditionList» : Nat := 112
abbrev «ExtensionAddition» : Nat := 113
abbrev «NamedNumber» : Nat := 114
abbrev «NamedNumberList» : Nat := 115
abbrev «Enumerations» : Nat := 116
abbrev «Enumeration» : Nat := 117
abbrev «RootEnumeration» : Nat := 118
abbrev «AdditionalEnumeration» : Nat := 119
abbrev «EnumerationItem» : Nat := 120
abbrev «ModuleDefinition» : Nat := 121
abbrev «Exports» : Nat := 122
abbrev «SymbolsExported» : Nat := 123
abbrev «ExceptionSpec» : Nat := 124
abbrev «ExtensionAndException» : Nat := 125
abbrev «OptionalExtensionMarker» : Nat := 126
abbrev «ExtensionEndMarker» : Nat := 127
abbrev «ExtensionAdditionGroup» : Nat := 128
abbrev «VersionNumber» : Nat := 129
abbrev «ExtensionAdditionAlternativesGroup» : Nat := 130
abbrev «UnionMark» : Nat := 131
abbrev «IntersectionMark» : Nat := 132
abbrev «SingleTypeConstraint» : Nat := 133
abbrev «MultipleTypeConstraints» : Nat := 134
abbrev «FullSpecification» : Nat := 135
abbrev «PartialSpecification» : Nat := 136
abbrev «TypeConstraints» : Nat := 137
abbrev «NamedConstraint» : Nat := 138
abbrev «ComponentConstraint» : Nat := 139
abbrev «ValueConstraint» : Nat := 140
abbrev «PresenceConstraint» : Nat := 141
abbrev «ExceptionIdentification» : Nat := 142
end NT

open Sym Tok NT in
/-- asn1.y:334-1055 -/
def rules : List (Nat × List Sym) := [
  (NT.«ModuleDefinition», [n NT.«ModuleIdentifier», t Tok.DEFINITIONS, n NT.«TagDefault», n NT.«ExtensionDefault», t Tok.ASSIGNMENT, t Tok.BEGIN, n NT.«ModuleBody», t Tok.END]), -- 1
  (NT.«typereference», [t Tok.TYPEORMODULEREFERENCE]), -- 2
  (NT.«modulereference», [t Tok.TYPEORMODULEREFERENCE]), -- 3
  (NT.«valuereference», [t Tok.VALUEIDENTIFIER]), -- 4
  (NT.«number», [t Tok.NUMBER]), -- 5
  (NT.«identifier», [t Tok.VALUEIDENTIFIER]), -- 6
  (NT.«ModuleIdentifier», [n NT.«modulereference», n NT.«DefinitiveIdentifier»]), -- 7
  (NT.«DefinitiveIdentifier», [t Tok.OPEN_CURLY, n NT.«DefinitiveObjIdComponentList», t Tok.CLOSE_CURLY]), -- 8
  (NT.«DefinitiveIdentifier», []), -- 9
  (NT.«DefinitiveObjIdComponentList», [n NT.«DefinitiveObjIdComponent»]), -- 10
  (NT.«DefinitiveObjIdComponentList», [n NT.«DefinitiveObjIdComponent», n NT.«DefinitiveObjIdComponentList»]), -- 11
  (NT.«DefinitiveObjIdComponent», [n NT.«NameForm»]), -- 12
  (NT.«DefinitiveObjIdComponent», [n NT.«DefinitiveNumberForm»]), -- 13
  (NT.«DefinitiveObjIdComponent», [n NT.«DefinitiveNameAndNumberForm»]), -- 14
  (NT.«DefinitiveNumberForm», [t Tok.NUMBER]), -- 15
  (NT.«DefinitiveNameAndNumberForm», [n NT.«identifier», t Tok.OPEN_ROUND, n NT.«DefinitiveNumberForm», t Tok.CLOSE_ROUND]), -- 16
  (NT.«TagDefault», [t Tok.EXPLICIT, t Tok.TAGS]), -- 17
  (NT.«TagDefault», [t Tok.IMPLICIT, t Tok.TAGS]), -- 18
  (NT.«TagDefault», [t Tok.AUTOMATIC, t Tok.TAGS]), -- 19
  (NT.«TagDefault», []), -- 20
  (NT.«ExtensionDefault», [t Tok.EXTENSIBILITY, t Tok.IMPLIED]), -- 21
  (NT.«ExtensionDefault», []), -- 22
  (NT.«ModuleBody», [n NT.«Exports», n NT.«Imports», n NT.«AssignmentList»]), -- 23
  (NT.«ModuleBody», []), -- 24
  (NT.«Exports», [t Tok.EXPORTS, n NT.«SymbolsExported», t Tok.SEMICOLON]), -- 25
  (NT.«Exports», [t Tok.EXPORTS, t Tok.ALL, t Tok.SEMICOLON]), -- 26
  (NT.«Exports», []), -- 27
  (NT.«SymbolsExported», [n NT.«SymbolList»]), -- 28
  (NT.«SymbolsExported», []), -- 29
  (NT.«Imports», [t Tok.IMPORTS, n NT.«SymbolsImported», t Tok.SEMICOLON]), -- 30
  (NT.«Imports», []), -- 31
  (NT.«SymbolsImported», [n NT.«SymbolsFromModuleList»]), -- 32
  (NT.«SymbolsImported», []), -- 33
  (NT.«SymbolsFromModuleList», [n NT.«SymbolsFromModule»]), -- 34
  (NT.«SymbolsFromModuleList», [n NT.«SymbolsFromModuleList», n NT.«SymbolsFromModule»]), -- 35
  (NT.«SymbolsFromModule», [n NT.«SymbolList», t Tok.FROM, n NT.«GlobalModuleReference»]), -- 36
  (NT.«GlobalModuleReference», [n NT.«modulereference», n NT.«AssignedIdentifier»]), -- 37
  (NT.«AssignedIdentifier», [n NT.«ObjectIdentifierValue»]), -- 38
  (NT.«AssignedIdentifier», [n NT.«DefinedValue»]), -- 39
  (NT.«AssignedIdentifier», []), -- 40
  (NT.«SymbolList», [n NT.«Symbol»]), -- 41
  (NT.«SymbolList», [n NT.«SymbolList», t Tok.COMMA, n NT.«Symbol»]), -- 42
  (NT.«Symbol», [n NT.«Reference»]), -- 43
  (NT.«Reference», [n NT.«typereference»]), -- 44
  (NT.«Reference», [n NT.«modulereference»]), -- 45
  (NT.«Reference», [n NT.«valuereference»]), -- 46
  (NT.«AssignmentList», [n NT.«Assignment»]), -- 47
  (NT.«AssignmentList», [n NT.«AssignmentList», n NT.«Assignment»]), -- 48
  (NT.«Assignment», [n NT.«TypeAssignment»]), -- 49
  (NT.«Assignment», [n NT.«ValueAssignment»]), -- 50
  (NT.«DefinedType», [n NT.«typereference»]), -- 51
  (NT.«DefinedValue», [n NT.«modulereference», t Tok.DOT, n NT.«valuereference»]), -- 52
  (NT.«DefinedValue», [n NT.«valuereference»]), -- 53
  (NT.«TypeAssignment», [n NT.«typereference», t Tok.ASSIGNMENT, n NT.«Type»]), -- 54
  (NT.«ValueAssignment», [n NT.«valuereference», n NT.«Type», t Tok.ASSIGNMENT, n NT.«Value»]), -- 55
  (NT.«Type», [n NT.«BuiltinType»]), -- 56
  (NT.«Type», [n NT.«ReferencedType»]), -- 57
  (NT.«Type», [n NT.«ConstrainedType»]), -- 58
  (NT.«BuiltinType», [n NT.«BitStringType»]), -- 59
  (NT.«BuiltinType», [n NT.«BooleanType»]), -- 60
  (NT.«BuiltinType», [n NT.«CharacterStringType»]), -- 61
  (NT.«BuiltinType», [n NT.«ChoiceType»]), -- 62
  (NT.«BuiltinType», [n NT.«EnumeratedType»]), -- 63
  (NT.«BuiltinType», [n NT.«IntegerType»]), -- 64
  (NT.«BuiltinType», [n NT.«NullType»]), -- 65
  (NT.«BuiltinType», [n NT.«ObjectIdentifierType»]), -- 66
  (NT.«BuiltinType», [n NT.«OctetStringType»]), -- 67
  (NT.«BuiltinType», [n NT.«RealType»]), -- 68
  (NT.«BuiltinType», [n NT.«SequenceType»]), -- 69
  (NT.«BuiltinType», [n NT.«SequenceOfType»]), -- 70
  (NT.«BuiltinType», [n NT.«SetType»]), -- 71
  (NT.«BuiltinType», [n NT.«SetOfType»]), -- 72
  (NT.«BuiltinType», [n NT.«AnyType»]), -- 73
  (NT.«BuiltinType», [n NT.«TaggedType»]), -- 74
  (NT.«ReferencedType», [n NT.«DefinedType»]), -- 75
  (NT.«ReferencedType», [n NT.«UsefulType»]), -- 76
  (NT.«NamedType», [n NT.«identifier», n NT.«Type»]), -- 77
  (NT.«Value», [n NT.«BuiltinValue»]), -- 78
  (NT.«BuiltinValue», [n NT.«BooleanValue»]), -- 79
  (NT.«BuiltinValue», [n NT.«IntegerValue»]), -- 80
  (NT.«BuiltinValue», [n NT.«ObjectIdentifierValue»]), -- 81
  (NT.«BuiltinValue», [n NT.«RealValue»]), -- 82
  (NT.«BooleanType», [t Tok.BOOLEAN]), -- 83
  (NT.«BooleanValue», [t Tok.TRUE]), -- 84
  (NT.«BooleanValue», [t Tok.FALSE]), -- 85
  (NT.«IntegerType», [t Tok.INTEGER]), -- 86
  (NT.«IntegerType», [t Tok.INTEGER, t Tok.OPEN_CURLY, n NT.«NamedNumberList», t Tok.CLOSE_CURLY]), -- 87
  (NT.«NamedNumberList», [n NT.«NamedNumber»]), -- 88
  (NT.«NamedNumberList», [n NT.«NamedNumberList», t Tok.COMMA, n NT.«NamedNumber»]), -- 89
  (NT.«NamedNumber», [n NT.«identifier», t Tok.OPEN_ROUND, n NT.«SignedNumber», t Tok.CLOSE_ROUND]), -- 90
  (NT.«NamedNumber», [n NT.«identifier», t Tok.OPEN_ROUND, n NT.«DefinedValue», t Tok.CLOSE_ROUND]), -- 91
  (NT.«SignedNumber», [t Tok.NUMBER]), -- 92
  (NT.«SignedNumber», [t Tok.MINUS, t Tok.NUMBER]), -- 93
  (NT.«IntegerValue», [n NT.«SignedNumber»]), -- 94
  (NT.«IntegerValue», [n NT.«identifier»]), -- 95
  (NT.«EnumeratedType», [t Tok.ENUMERATED, t Tok.OPEN_CURLY, n NT.«Enumerations», t Tok.CLOSE_CURLY]), -- 96
  (NT.«Enumerations», [n NT.«RootEnumeration»]), -- 97
  (NT.«Enumerations», [n NT.«RootEnumeration», t Tok.COMMA, t Tok.ELLIPSIS, n NT.«ExceptionSpec»]), -- 98
  (NT.«Enumerations», [n NT.«RootEnumeration», t Tok.COMMA, t Tok.ELLIPSIS, n NT.«ExceptionSpec», t Tok.COMMA, n NT.«AdditionalEnumeration»]), -- 99
  (NT.«RootEnumeration», [n NT.«Enumeration»]), -- 100
  (NT.«AdditionalEnumeration», [n NT.«Enumeration»]), -- 101
  (NT.«Enumeration», [n NT.«EnumerationItem»]), -- 102
  (NT.«Enumeration», [n NT.«EnumerationItem», t Tok.COMMA, n NT.«Enumeration»]), -- 103
  (NT.«EnumerationItem», [n NT.«NamedNumber»]), -- 104
  (NT.«EnumerationItem», [n NT.«identifier»]), -- 105
  (NT.«RealType», [t Tok.REAL]), -- 106
  (NT.«RealValue», [n NT.«NumericRealValue»]), -- 107
  (NT.«RealValue», [n NT.«SpecialRealValue»]), -- 108
  (NT.«NumericRealValue», [n NT.«realnumber»]), -- 109
  (NT.«NumericRealValue», [t Tok.MINUS, n NT.«realnumber»]), -- 110
  (NT.«SpecialRealValue», [t Tok.PLUS_INFINITY]), -- 111
  (NT.«SpecialRealValue», [t Tok.MINUS_INFINITY]), -- 112
  (NT.«realnumber», [t Tok.NUMBER]), -- 113
  (NT.«realnumber», [t Tok.NUMBER, t Tok.DOT, t Tok.NUMBER]), -- 114
  (NT.«realnumber», [t Tok.NUMBER, t Tok.DOT, t Tok.NUMBER, t Tok.EXPONENT, n NT.«SignedExponent»]), -- 115
  (NT.«realnumber», [t Tok.NUMBER, t Tok.EXPONENT, n NT.«SignedExponent»]), -- 116
  (NT.«SignedExponent», [t Tok.NUMBER]), -- 117
  (NT.«SignedExponent», [t Tok.MINUS, t Tok.NUMBER]), -- 118
  (NT.«BitStringType», [t Tok.BIT, t Tok.STRING]), -- 119
  (NT.«BitStringType», [t Tok.BIT, t Tok.STRING, t Tok.OPEN_CURLY, n NT.«NamedBitList», t Tok.CLOSE_CURLY]), -- 120
  (NT.«NamedBitList», [n NT.«NamedBit»]), -- 121
  (NT.«NamedBitList», [n NT.«NamedBitList», t Tok.COMMA, n NT.«NamedBit»]), -- 122
  (NT.«NamedBit», [n NT.«identifier», t Tok.OPEN_ROUND, n NT.«number», t Tok.CLOSE_ROUND]), -- 123
  (NT.«NamedBit», [n NT.«identifier», t Tok.OPEN_ROUND, n NT.«DefinedValue», t Tok.CLOSE_ROUND]), -- 124
  (NT.«OctetStringType», [t Tok.OCTET, t Tok.STRING]), -- 125
  (NT.«NullType», [t Tok.NULL]), -- 126
  (NT.«SequenceType», [t Tok.SEQUENCE, t Tok.OPEN_CURLY, t Tok.CLOSE_CURLY]), -- 127
  (NT.«SequenceType», [t Tok.SEQUENCE, t Tok.OPEN_CURLY, n NT.«ExtensionAndException», n NT.«OptionalExtensionMarker», t Tok.CLOSE_CURLY]), -- 128
  (NT.«SequenceType», [t Tok.SEQUENCE, t Tok.OPEN_CURLY, n NT.«ComponentTypeLists», t Tok.CLOSE_CURLY]), -- 129
  (NT.«ExtensionAndException», [t Tok.ELLIPSIS]), -- 130
  (NT.«ExtensionAndException», [t Tok.ELLIPSIS, n NT.«ExceptionSpec»]), -- 131
  (NT.«OptionalExtensionMarker», [t Tok.COMMA, t Tok.ELLIPSIS]), -- 132
  (NT.«OptionalExtensionMarker», []), -- 133
  (NT.«ComponentTypeLists», [n NT.«ComponentTypeList»]), -- 134
  (NT.«ComponentTypeLists», [n NT.«ComponentTypeList», t Tok.COMMA, n NT.«ExtensionAndException», n NT.«ExtensionAdditions», n NT.«OptionalExtensionMarker»]), -- 135
  (NT.«ComponentTypeLists», [n NT.«ComponentTypeList», t Tok.COMMA, n NT.«ExtensionAndException», n NT.«ExtensionAdditions», n NT.«ExtensionEndMarker», t Tok.COMMA, n NT.«ComponentTypeList»]), -- 136
  (NT.«RootComponentTypeList», [n NT.«ComponentTypeList»]), -- 137
  (NT.«ExtensionEndMarker», [t Tok.COMMA, t Tok.ELLIPSIS]), -- 138
  (NT.«ExtensionAdditions», [t Tok.COMMA, n NT.«ExtensionAdditionList»]), -- 139
  (NT.«ExtensionAdditions», []), -- 140
  (NT.«ExtensionAdditionList», [n NT.«ExtensionAddition»]), -- 141
  (NT.«ExtensionAdditionList», [n NT.«ExtensionAdditionList», t Tok.COMMA, n NT.«ExtensionAddition»]), -- 142
  (NT.«ExtensionAddition», [n NT.«ComponentType»]), -- 143
  (NT.«ExtensionAddition», [n NT.«ExtensionAdditionGroup»]), -- 144
  (NT.«ExtensionAdditionGroup», [t Tok.LEFT_VERSION_BRACKETS, n NT.«VersionNumber», n NT.«ComponentTypeList», t Tok.RIGHT_VERSION_BRACKETS]), -- 145
  (NT.«VersionNumber», []), -- 146
  (NT.«VersionNumber», [t Tok.NUMBER, t Tok.COLON]), -- 147
  (NT.«ComponentTypeList», [n NT.«ComponentType»]), -- 148
  (NT.«ComponentTypeList», [n NT.«ComponentTypeList», t Tok.COMMA, n NT.«ComponentType»]), -- 149
  (NT.«ComponentType», [n NT.«NamedType»]), -- 150
  (NT.«ComponentType», [n NT.«NamedType», t Tok.OPTIONAL]), -- 151
  (NT.«ComponentType», [n NT.«NamedType», t Tok.DEFAULT, n NT.«Value»]), -- 152
  (NT.«ComponentType», [t Tok.COMPONENTS, t Tok.OF, n NT.«Type»]), -- 153
  (NT.«SetType», [t Tok.SET, t Tok.OPEN_CURLY, t Tok.CLOSE_CURLY]), -- 154
  (NT.«SetType», [t Tok.SET, t Tok.OPEN_CURLY, n NT.«ExtensionAndException», n NT.«OptionalExtensionMarker», t Tok.CLOSE_CURLY]), -- 155
  (NT.«SetType», [t Tok.SET, t Tok.OPEN_CURLY, n NT.«ComponentTypeLists», t Tok.CLOSE_CURLY]), -- 156
  (NT.«SetOfType», [t Tok.SET, t Tok.OF, n NT.«Type»]), -- 157
  (NT.«SetOfType», [t Tok.SET, t Tok.OF, n NT.«NamedType»]), -- 158
  (NT.«AnyType», [t Tok.ANY]), -- 159
  (NT.«AnyType», [t Tok.ANY, t Tok.DEFINED, t Tok.BY, n NT.«identifier»]), -- 160
  (NT.«ChoiceType», [t Tok.CHOICE, t Tok.OPEN_CURLY, n NT.«AlternativeTypeLists», t Tok.CLOSE_CURLY]), -- 161
  (NT.«AlternativeTypeLists», [n NT.«AlternativeTypeList», t Tok.COMMA, n NT.«ExtensionAndException», n NT.«ExtensionAdditionAlternatives», n NT.«OptionalExtensionMarker»]), -- 162
  (NT.«AlternativeTypeLists», [n NT.«AlternativeTypeList»]), -- 163
  (NT.«AlternativeTypeLists», [n NT.«ExtensionAndException», n NT.«ExtensionAdditionAlternatives», n NT.«OptionalExtensionMarker»]), -- 164
  (NT.«RootAlternativeTypeList», [n NT.«AlternativeTypeList»]), -- 165
  (NT.«ExtensionAdditionAlternatives», [t Tok.COMMA, n NT.«ExtensionAdditionAlternativesList»]), -- 166
  (NT.«ExtensionAdditionAlternatives», []), -- 167
  (NT.«ExtensionAdditionAlternativesList», [n NT.«ExtensionAdditionAlternative»]), -- 168
  (NT.«ExtensionAdditionAlternativesList», [n NT.«ExtensionAdditionAlternativesList», t Tok.COMMA, n NT.«ExtensionAdditionAlternative»]), -- 169
  (NT.«ExtensionAdditionAlternative», [n NT.«NamedType»]), -- 170
  (NT.«ExtensionAdditionAlternativesGroup», [t Tok.LEFT_VERSION_BRACKETS, n NT.«VersionNumber», n NT.«AlternativeTypeList», t Tok.RIGHT_VERSION_BRACKETS]), -- 171
  (NT.«AlternativeTypeList», [n NT.«NamedType»]), -- 172
  (NT.«AlternativeTypeList», [n NT.«AlternativeTypeList», t Tok.COMMA, n NT.«NamedType»]), -- 173
  (NT.«TaggedType», [n NT.«Tag», n NT.«Type»]), -- 174
  (NT.«TaggedType», [n NT.«Tag», t Tok.IMPLICIT, n NT.«Type»]), -- 175
  (NT.«TaggedType», [n NT.«Tag», t Tok.EXPLICIT, n NT.«Type»]), -- 176
  (NT.«Tag», [t Tok.OPEN_SQUARE, n NT.«Class», n NT.«ClassNumber», t Tok.CLOSE_SQUARE]), -- 177
  (NT.«ClassNumber», [n NT.«number»]), -- 178
  (NT.«ClassNumber», [n NT.«DefinedValue»]), -- 179
  (NT.«Class», [t Tok.UNIVERSAL]), -- 180
  (NT.«Class», [t Tok.APPLICATION]), -- 181
  (NT.«Class», [t Tok.PRIVATE]), -- 182
  (NT.«Class», []), -- 183
  (NT.«SequenceOfType», [t Tok.SEQUENCE, t Tok.OF, n NT.«Type»]), -- 184
  (NT.«SequenceOfType», [t Tok.SEQUENCE, t Tok.OF, n NT.«NamedType»]), -- 185
  (NT.«ObjectIdentifierType», [t Tok.OBJECT, t Tok.IDENTIFIER]), -- 186
  (NT.«ObjectIdentifierValue», [t Tok.OPEN_CURLY, n NT.«ObjIdComponentsList», t Tok.CLOSE_CURLY]), -- 187
  (NT.«ObjectIdentifierValue», [t Tok.OPEN_CURLY, n NT.«DefinedValue», n NT.«ObjIdComponentsList», t Tok.CLOSE_CURLY]), -- 188
  (NT.«ObjIdComponentsList», [n NT.«ObjIdComponents»]), -- 189
  (NT.«ObjIdComponentsList», [n NT.«ObjIdComponents», n NT.«ObjIdComponentsList»]), -- 190
  (NT.«ObjIdComponents», [n NT.«NameForm»]), -- 191
  (NT.«ObjIdComponents», [n NT.«NumberForm»]), -- 192
  (NT.«ObjIdComponents», [n NT.«NameAndNumberForm»]), -- 193
  (NT.«ObjIdComponents», [n NT.«DefinedValue»]), -- 194
  (NT.«NumberForm», [t Tok.NUMBER]), -- 195
  (NT.«NumberForm», [n NT.«DefinedValue»]), -- 196
  (NT.«NameAndNumberForm», [n NT.«identifier», t Tok.OPEN_ROUND, n NT.«NumberForm», t Tok.CLOSE_ROUND]), -- 197
  (NT.«NameForm», [n NT.«identifier»]), -- 198
  (NT.«CharacterStringType», [n NT.«RestrictedCharacterStringType»]), -- 199
  (NT.«CharacterStringType», [n NT.«UnrestrictedCharacterStringType»]), -- 200
  (NT.«RestrictedCharacterStringType», [t Tok.BMPString]), -- 201
  (NT.«RestrictedCharacterStringType», [t Tok.GeneralString]), -- 202
  (NT.«RestrictedCharacterStringType», [t Tok.GraphicString]), -- 203
  (NT.«RestrictedCharacterStringType», [t Tok.IA5String]), -- 204
  (NT.«RestrictedCharacterStringType», [t Tok.ISO646String]), -- 205
  (NT.«RestrictedCharacterStringType», [t Tok.NumericString]), -- 206
  (NT.«RestrictedCharacterStringType», [t Tok.PrintableString]), -- 207
  (NT.«RestrictedCharacterStringType», [t Tok.TeletexString]), -- 208
  (NT.«RestrictedCharacterStringType», [t Tok.T61String]), -- 209
  (NT.«RestrictedCharacterStringType», [t Tok.UniversalString]), -- 210
  (NT.«RestrictedCharacterStringType», [t Tok.UTF8String]), -- 211
  (NT.«RestrictedCharacterStringType», [t Tok.VideotexString]), -- 212
  (NT.«RestrictedCharacterStringType», [t Tok.VisibleString]), -- 213
  (NT.«UnrestrictedCharacterStringType», [t Tok.CHARACTER, t Tok.STRING]), -- 214
  (NT.«UsefulType», [t Tok.GeneralizedTime]), -- 215
  (NT.«UsefulType», [t Tok.UTCTime]), -- 216
  (NT.«ConstrainedType», [n NT.«Type», n NT.«Constraint»]), -- 217
  (NT.«ConstrainedType», [n NT.«TypeWithConstraint»]), -- 218
  (NT.«TypeWithConstraint», [t Tok.SET, n NT.«Constraint», t Tok.OF, n NT.«Type»]), -- 219
  (NT.«TypeWithConstraint», [t Tok.SET, n NT.«SizeConstraint», t Tok.OF, n NT.«Type»]), -- 220
  (NT.«TypeWithConstraint», [t Tok.SEQUENCE, n NT.«Constraint», t Tok.OF, n NT.«Type»]), -- 221
  (NT.«TypeWithConstraint», [t Tok.SEQUENCE, n NT.«SizeConstraint», t Tok.OF, n NT.«Type»]), -- 222
  (NT.«TypeWithConstraint», [t Tok.SET, n NT.«Constraint», t Tok.OF, n NT.«NamedType»]), -- 223
  (NT.«TypeWithConstraint», [t Tok.SET, n NT.«SizeConstraint», t Tok.OF, n NT.«NamedType»]), -- 224
  (NT.«TypeWithConstraint», [t Tok.SEQUENCE, n NT.«Constraint», t Tok.OF, n NT.«NamedType»]), -- 225
  (NT.«TypeWithConstraint», [t Tok.SEQUENCE, n NT.«SizeConstraint», t Tok.OF, n NT.«NamedType»]), -- 226
  (NT.«Constraint», [t Tok.OPEN_ROUND, n NT.«ConstraintSpec», n NT.«ExceptionSpec», t Tok.CLOSE_ROUND]), -- 227
  (NT.«ConstraintSpec», [n NT.«SubtypeConstraint»]), -- 228
  (NT.«SubtypeConstraint», [n NT.«ElementSetSpecs»]), -- 229
  (NT.«ElementSetSpecs», [n NT.«RootElementSetSpec»]), -- 230
  (NT.«ElementSetSpecs», [n NT.«RootElementSetSpec», t Tok.COMMA, t Tok.ELLIPSIS]), -- 231
  (NT.«ElementSetSpecs», [n NT.«RootElementSetSpec», t Tok.COMMA, t Tok.ELLIPSIS, t Tok.COMMA, n NT.«AdditionalElementSetSpec»]), -- 232
  (NT.«RootElementSetSpec», [n NT.«ElementSetSpec»]), -- 233
  (NT.«AdditionalElementSetSpec», [n NT.«ElementSetSpec»]), -- 234
  (NT.«ElementSetSpec», [n NT.«Unions»]), -- 235
  (NT.«ElementSetSpec», [t Tok.ALL, n NT.«Exclusions»]), -- 236
  (NT.«Unions», [n NT.«Intersections»]), -- 237
  (NT.«Unions», [n NT.«UElems», n NT.«UnionMark», n NT.«Intersections»]), -- 238
  (NT.«UElems», [n NT.«Unions»]), -- 239
  (NT.«Intersections», [n NT.«IntersectionElements»]), -- 240
  (NT.«Intersections», [n NT.«IElems», n NT.«IntersectionMark», n NT.«IntersectionElements»]), -- 241
  (NT.«IElems», [n NT.«Intersections»]), -- 242
  (NT.«IntersectionElements», [n NT.«Elements»]), -- 243
  (NT.«IntersectionElements», [n NT.«Elems», n NT.«Exclusions»]), -- 244
  (NT.«Elems», [n NT.«Elements»]), -- 245
  (NT.«Exclusions», [t Tok.EXCEPT, n NT.«Elements»]), -- 246
  (NT.«UnionMark», [t Tok.PIPE]), -- 247
  (NT.«UnionMark», [t Tok.UNION]), -- 248
  (NT.«IntersectionMark», [t Tok.CARET]), -- 249
  (NT.«IntersectionMark», [t Tok.INTERSECTION]), -- 250
  (NT.«Elements», [n NT.«SubtypeElements»]), -- 251
  (NT.«Elements», [t Tok.OPEN_ROUND, n NT.«ElementSetSpec», t Tok.CLOSE_ROUND]), -- 252
  (NT.«SubtypeElements», [n NT.«SingleValue»]), -- 253
  (NT.«SubtypeElements», [n NT.«ValueRange»]), -- 254
  (NT.«SubtypeElements», [n NT.«SizeConstraint»]), -- 255
  (NT.«SubtypeElements», [n NT.«TypeConstraint»]), -- 256
  (NT.«SubtypeElements», [n NT.«InnerTypeConstraints»]), -- 257
  (NT.«SingleValue», [n NT.«Value»]), -- 258
  (NT.«ValueRange», [n NT.«LowerEndpoint», t Tok.RANGE_SEPARATOR, n NT.«UpperEndpoint»]), -- 259
  (NT.«LowerEndpoint», [n NT.«LowerEndValue»]), -- 260
  (NT.«LowerEndpoint», [n NT.«LowerEndValue», t Tok.LESS]), -- 261
  (NT.«UpperEndpoint», [n NT.«UpperEndValue»]), -- 262
  (NT.«UpperEndpoint», [t Tok.LESS, n NT.«UpperEndValue»]), -- 263
  (NT.«LowerEndValue», [n NT.«Value»]), -- 264
  (NT.«LowerEndValue», [t Tok.MIN]), -- 265
  (NT.«UpperEndValue», [n NT.«Value»]), -- 266
  (NT.«UpperEndValue», [t Tok.MAX]), -- 267
  (NT.«SizeConstraint», [t Tok.SIZE, n NT.«Constraint»]), -- 268
  (NT.«TypeConstraint», [n NT.«Type»]), -- 269
  (NT.«InnerTypeConstraints», [t Tok.WITH, t Tok.COMPONENT, n NT.«SingleTypeConstraint»]), -- 270
  (NT.«InnerTypeConstraints», [t Tok.WITH, t Tok.COMPONENTS, n NT.«MultipleTypeConstraints»]), -- 271
  (NT.«SingleTypeConstraint», [n NT.«Constraint»]), -- 272
  (NT.«MultipleTypeConstraints», [n NT.«FullSpecification»]), -- 273
  (NT.«MultipleTypeConstraints», [n NT.«PartialSpecification»]), -- 274
  (NT.«FullSpecification», [t Tok.OPEN_CURLY, n NT.«TypeConstraints», t Tok.CLOSE_CURLY]), -- 275
  (NT.«PartialSpecification», [t Tok.OPEN_CURLY, t Tok.ELLIPSIS, t Tok.COMMA, n NT.«TypeConstraints», t Tok.CLOSE_CURLY]), -- 276
  (NT.«TypeConstraints», [n NT.«NamedConstraint»]), -- 277
  (NT.«TypeConstraints», [n NT.«NamedConstraint», t Tok.COMMA, n NT.«TypeConstraints»]), -- 278
  (NT.«NamedConstraint», [n NT.«identifier», n NT.«ComponentConstraint»]), -- 279
  (NT.«ComponentConstraint», [n NT.«ValueConstraint», n NT.«PresenceConstraint»]), -- 280
  (NT.«ValueConstraint», [n NT.«Constraint»]), -- 281
  (NT.«ValueConstraint», []), -- 282
  (NT.«PresenceConstraint», [t Tok.PRESENT]), -- 283
  (NT.«PresenceConstraint», [t Tok.ABSENT]), -- 284
  (NT.«PresenceConstraint», [t Tok.OPTIONAL]), -- 285
  (NT.«PresenceConstraint», []), -- 286
  (NT.«ExceptionSpec», [t Tok.EXCLAMATION, n NT.«ExceptionIdentification»]), -- 287
  (NT.«ExceptionSpec», []), -- 288
  (NT.«ExceptionIdentification», [n NT.«SignedNumber»]), -- 289
  (NT.«ExceptionIdentification», [n NT.«DefinedValue»]), -- 290
  (NT.«ExceptionIdentification», [n NT.«Type», t Tok.COLON, n NT.«Value»])] -- 291

end Asn1go.Spec
