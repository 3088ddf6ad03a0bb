import Verif.Props.Lexer

/-! The tests of /repo/lexer_test.go, run on the model (written by tools/lexertests.py).  These are tests of the model, not proofs of
properties: they show that it does what the authors of the code expect.  `TestPeekRunes` is left out (`peekRunes` is modelled only for the
lengths the lexer uses). -/

namespace Asn1go.Tests

open Asn1go.Props

/-- lexer_test.go:19-34 `testLexem` -/
def lexem (input : Str) : Option (Int × Str × Option (Int × ErrMsg)) :=
  (lex asciiUnicode (LexState.init input .eof) {}).map fun r => (r.1, r.2.1.name, r.2.2.err)

/-- lexer_test.go:14-17 `testLexemType` -/
def lexemType (input : Str) : Option (Int × Option (Int × ErrMsg)) :=
  (lex asciiUnicode (LexState.init input .eof) {}).map fun r => (r.1, r.2.2.err)

/-- lexer_test.go:36-51 `testNumber` -/
def lexemNumber (input : Str) : Option (Int × Int × Option (Int × ErrMsg)) :=
  (lex asciiUnicode (LexState.init input .eof) {}).map fun r => (r.1, r.2.1.number, r.2.2.err)

/-- Codes and numbers of the first `n` calls of `Lex`. -/
def lexems : Nat → LexState → LVal → List (Int × Int)
  | 0, _, _ => []
  | n + 1, st, lval =>
    match lex asciiUnicode st lval with
    | none => []
    | some (code, lval', st') => (code, lval'.number) :: lexems n st' lval'

/-- lexer_test.go:71-76 TestTypeReference -/
example : lexem (c! "MyTypeReference") = some (Tok.TYPEORMODULEREFERENCE, c! "MyTypeReference", none) ∧
    lexem (c! "My-Type-Reference") = some (Tok.TYPEORMODULEREFERENCE, c! "My-Type-Reference", none) ∧
    (lexem (c! "My--Type-Reference")).map (·.2.2) = some (some (1, .twoHyphens (c! "My--"))) ∧
    (lexem (c! "MyTypeReference-")).map (·.2.2) = some (some (1, .endsOnHyphen (c! "MyTypeReference-"))) := by
  and_intros <;> decide +kernel

/-- lexer_test.go:78-83 TestIdentifier -/
example : lexem (c! "myIdentifier") = some (Tok.VALUEIDENTIFIER, c! "myIdentifier", none) ∧
    lexem (c! "my-Identifier") = some (Tok.VALUEIDENTIFIER, c! "my-Identifier", none) ∧
    (lexem (c! "my--Identifier")).map (·.2.2) = some (some (1, .twoHyphens (c! "my--"))) ∧
    (lexem (c! "myIdentifier-")).map (·.2.2) = some (some (1, .endsOnHyphen (c! "myIdentifier-"))) := by
  and_intros <;> decide +kernel

/-- lexer_test.go:85-87 TestSpacing -/
example : lexem (c! "   myIdentifier   ") = some (Tok.VALUEIDENTIFIER, c! "myIdentifier", none) := by
  and_intros <;> decide +kernel

/-- lexer_test.go:106-132 TestComments -/
example : lexem (c! "myIdentifier --thisisacomment") = some (Tok.VALUEIDENTIFIER, c! "myIdentifier", none) ∧
    lexem (c! "\n\t-- this is one comment\n\t-- this is second comment\n\tmyIdentifier -- this is another comment\n\t-- this is trailing comment\n\t") = some (Tok.VALUEIDENTIFIER, c! "myIdentifier", none) ∧
    lexem (c! "--comment1-- -- c-o-mm-ent2 -- myIdentifier --comment3-- ") = some (Tok.VALUEIDENTIFIER, c! "myIdentifier", none) ∧
    lexem (c! "\n\t/*\n\tthis is a comment\n\t*/\n\n\t/* this is another comment */\n\n\t/*\n\tthis\n\t/* is nested comment */\n\t*/\n\n\tmyIdentifier\n\t") = some (Tok.VALUEIDENTIFIER, c! "myIdentifier", none) := by
  and_intros <;> decide +kernel

/-- lexer_test.go:134-139 TestNumber -/
example : lexemNumber (c! "0") = some (Tok.NUMBER, 0, none) ∧
    lexemNumber (c! "1") = some (Tok.NUMBER, 1, none) ∧
    lexemNumber (c! "123") = some (Tok.NUMBER, 123, none) ∧
    lexemNumber (c! "12345") = some (Tok.NUMBER, 12345, none) := by
  and_intros <;> decide +kernel

/-- lexer_test.go:141-143 TestAssignment -/
example : lexemType (c! "::=") = some (Tok.ASSIGNMENT, none) := by
  and_intros <;> decide +kernel

/-- lexer_test.go:145-147 TestRangeSeparator -/
example : lexemType (c! "..") = some (Tok.RANGE_SEPARATOR, none) := by
  and_intros <;> decide +kernel

/-- lexer_test.go:149-151 TestEllipsis -/
example : lexemType (c! "...") = some (Tok.ELLIPSIS, none) := by
  and_intros <;> decide +kernel

/-- lexer_test.go:153-155 TestLeftVersionBrackets -/
example : lexemType (c! "[[") = some (Tok.LEFT_VERSION_BRACKETS, none) := by
  and_intros <;> decide +kernel

/-- lexer_test.go:157-159 TestRightVersionBrackets -/
example : lexemType (c! "]]") = some (Tok.RIGHT_VERSION_BRACKETS, none) := by
  and_intros <;> decide +kernel

/-- lexer_test.go:184-206 TestSingleSymbolTokens -/
example : lexemType (c! "{") = some (Tok.OPEN_CURLY, none) ∧
    lexemType (c! "}") = some (Tok.CLOSE_CURLY, none) ∧
    lexemType (c! "<") = some (Tok.LESS, none) ∧
    lexemType (c! ">") = some (Tok.GREATER, none) ∧
    lexemType (c! ",") = some (Tok.COMMA, none) ∧
    lexemType (c! ".") = some (Tok.DOT, none) ∧
    lexemType (c! "(") = some (Tok.OPEN_ROUND, none) ∧
    lexemType (c! ")") = some (Tok.CLOSE_ROUND, none) ∧
    lexemType (c! "[") = some (Tok.OPEN_SQUARE, none) ∧
    lexemType (c! "]") = some (Tok.CLOSE_SQUARE, none) ∧
    lexemType (c! "-") = some (Tok.MINUS, none) ∧
    lexemType (c! ":") = some (Tok.COLON, none) ∧
    lexemType (c! "=") = some (Tok.EQUALS, none) ∧
    lexemType (c! "\"") = some (Tok.QUOTATION_MARK, none) ∧
    lexemType (c! "'") = some (Tok.APOSTROPHE, none) ∧
    lexemType (c! ";") = some (Tok.SEMICOLON, none) ∧
    lexemType (c! "@") = some (Tok.AT, none) ∧
    lexemType (c! "|") = some (Tok.PIPE, none) ∧
    lexemType (c! "!") = some (Tok.EXCLAMATION, none) ∧
    lexemType (c! "^") = some (Tok.CARET, none) := by
  and_intros <;> decide +kernel

/-- lexer_test.go:208-289 TestReservedWords -/
example : lexemType (c! "ABSENT") = some (Tok.ABSENT, none) ∧
    lexemType (c! "ENCODED") = some (Tok.ENCODED, none) ∧
    lexemType (c! "INTEGER") = some (Tok.INTEGER, none) ∧
    lexemType (c! "RELATIVE-OID") = some (Tok.RELATIVE_OID, none) ∧
    lexemType (c! "ABSTRACT-SYNTAX") = some (Tok.ABSTRACT_SYNTAX, none) ∧
    lexemType (c! "END") = some (Tok.END, none) ∧
    lexemType (c! "INTERSECTION") = some (Tok.INTERSECTION, none) ∧
    lexemType (c! "SEQUENCE") = some (Tok.SEQUENCE, none) ∧
    lexemType (c! "ALL") = some (Tok.ALL, none) ∧
    lexemType (c! "ENUMERATED") = some (Tok.ENUMERATED, none) ∧
    lexemType (c! "ISO646String") = some (Tok.ISO646String, none) ∧
    lexemType (c! "SET") = some (Tok.SET, none) ∧
    lexemType (c! "APPLICATION") = some (Tok.APPLICATION, none) ∧
    lexemType (c! "EXCEPT") = some (Tok.EXCEPT, none) ∧
    lexemType (c! "MAX") = some (Tok.MAX, none) ∧
    lexemType (c! "SIZE") = some (Tok.SIZE, none) ∧
    lexemType (c! "AUTOMATIC") = some (Tok.AUTOMATIC, none) ∧
    lexemType (c! "EXPLICIT") = some (Tok.EXPLICIT, none) ∧
    lexemType (c! "MIN") = some (Tok.MIN, none) ∧
    lexemType (c! "STRING") = some (Tok.STRING, none) ∧
    lexemType (c! "BEGIN") = some (Tok.BEGIN, none) ∧
    lexemType (c! "EXPORTS") = some (Tok.EXPORTS, none) ∧
    lexemType (c! "MINUS-INFINITY") = some (Tok.MINUS_INFINITY, none) ∧
    lexemType (c! "SYNTAX") = some (Tok.SYNTAX, none) ∧
    lexemType (c! "BIT") = some (Tok.BIT, none) ∧
    lexemType (c! "EXTENSIBILITY") = some (Tok.EXTENSIBILITY, none) ∧
    lexemType (c! "NULL") = some (Tok.NULL, none) ∧
    lexemType (c! "T61String") = some (Tok.T61String, none) ∧
    lexemType (c! "BMPString") = some (Tok.BMPString, none) ∧
    lexemType (c! "EXTERNAL") = some (Tok.EXTERNAL, none) ∧
    lexemType (c! "NumericString") = some (Tok.NumericString, none) ∧
    lexemType (c! "TAGS") = some (Tok.TAGS, none) ∧
    lexemType (c! "BOOLEAN") = some (Tok.BOOLEAN, none) ∧
    lexemType (c! "FALSE") = some (Tok.FALSE, none) ∧
    lexemType (c! "OBJECT") = some (Tok.OBJECT, none) ∧
    lexemType (c! "TeletexString") = some (Tok.TeletexString, none) ∧
    lexemType (c! "BY") = some (Tok.BY, none) ∧
    lexemType (c! "FROM") = some (Tok.FROM, none) ∧
    lexemType (c! "ObjectDescriptor") = some (Tok.ObjectDescriptor, none) ∧
    lexemType (c! "TRUE") = some (Tok.TRUE, none) ∧
    lexemType (c! "CHARACTER") = some (Tok.CHARACTER, none) ∧
    lexemType (c! "GeneralizedTime") = some (Tok.GeneralizedTime, none) ∧
    lexemType (c! "OCTET") = some (Tok.OCTET, none) ∧
    lexemType (c! "TYPE-IDENTIFIER") = some (Tok.TYPE_IDENTIFIER, none) ∧
    lexemType (c! "CHOICE") = some (Tok.CHOICE, none) ∧
    lexemType (c! "GeneralString") = some (Tok.GeneralString, none) ∧
    lexemType (c! "OF") = some (Tok.OF, none) ∧
    lexemType (c! "UNION") = some (Tok.UNION, none) ∧
    lexemType (c! "CLASS") = some (Tok.CLASS, none) ∧
    lexemType (c! "GraphicString") = some (Tok.GraphicString, none) ∧
    lexemType (c! "OPTIONAL") = some (Tok.OPTIONAL, none) ∧
    lexemType (c! "UNIQUE") = some (Tok.UNIQUE, none) ∧
    lexemType (c! "COMPONENT") = some (Tok.COMPONENT, none) ∧
    lexemType (c! "IA5String") = some (Tok.IA5String, none) ∧
    lexemType (c! "PATTERN") = some (Tok.PATTERN, none) ∧
    lexemType (c! "UNIVERSAL") = some (Tok.UNIVERSAL, none) ∧
    lexemType (c! "COMPONENTS") = some (Tok.COMPONENTS, none) ∧
    lexemType (c! "IDENTIFIER") = some (Tok.IDENTIFIER, none) ∧
    lexemType (c! "PDV") = some (Tok.PDV, none) ∧
    lexemType (c! "UniversalString") = some (Tok.UniversalString, none) ∧
    lexemType (c! "CONSTRAINED") = some (Tok.CONSTRAINED, none) ∧
    lexemType (c! "IMPLICIT") = some (Tok.IMPLICIT, none) ∧
    lexemType (c! "PLUS-INFINITY") = some (Tok.PLUS_INFINITY, none) ∧
    lexemType (c! "UTCTime") = some (Tok.UTCTime, none) ∧
    lexemType (c! "CONTAINING") = some (Tok.CONTAINING, none) ∧
    lexemType (c! "IMPLIED") = some (Tok.IMPLIED, none) ∧
    lexemType (c! "PRESENT") = some (Tok.PRESENT, none) ∧
    lexemType (c! "UTF8String") = some (Tok.UTF8String, none) ∧
    lexemType (c! "DEFAULT") = some (Tok.DEFAULT, none) ∧
    lexemType (c! "IMPORTS") = some (Tok.IMPORTS, none) ∧
    lexemType (c! "PrintableString") = some (Tok.PrintableString, none) ∧
    lexemType (c! "VideotexString") = some (Tok.VideotexString, none) ∧
    lexemType (c! "DEFINITIONS") = some (Tok.DEFINITIONS, none) ∧
    lexemType (c! "INCLUDES") = some (Tok.INCLUDES, none) ∧
    lexemType (c! "PRIVATE") = some (Tok.PRIVATE, none) ∧
    lexemType (c! "VisibleString") = some (Tok.VisibleString, none) ∧
    lexemType (c! "EMBEDDED") = some (Tok.EMBEDDED, none) ∧
    lexemType (c! "INSTANCE") = some (Tok.INSTANCE, none) ∧
    lexemType (c! "REAL") = some (Tok.REAL, none) ∧
    lexemType (c! "WITH") = some (Tok.WITH, none) := by
  and_intros <;> decide +kernel

/-- lexer_test.go:89-104 TestNoSpacing -/
example : (lexems 2 (LexState.init (c! "myIdentifier(") .eof) {}).map (·.1) = [Tok.VALUEIDENTIFIER, Tok.OPEN_ROUND] := by
  decide +kernel

/-- lexer_test.go:291-328 TestRangeSynax -/
example : lexems 7 (LexState.init (c! "INTEGER (-2147483648..2147483647)") .eof) {} =
    [(Tok.INTEGER, 0), (Tok.OPEN_ROUND, 0), (Tok.MINUS, 0), (Tok.NUMBER, 2147483648), (Tok.RANGE_SEPARATOR, 2147483648),
      (Tok.NUMBER, 2147483647), (Tok.CLOSE_ROUND, 2147483647)] := by decide +kernel

/-- lexer_test.go:335-368 TestRealSyntax -/
example : (lexems 7 (LexState.init (c! "-1.2e5") .eof) {}).map (·.1) =
    [Tok.MINUS, Tok.NUMBER, Tok.DOT, Tok.NUMBER, Tok.EXPONENT, Tok.NUMBER, 0] ∧
    (lexems 6 (LexState.init (c! "-1.2 e5") .eof) {}).map (·.1) =
    [Tok.MINUS, Tok.NUMBER, Tok.DOT, Tok.NUMBER, Tok.VALUEIDENTIFIER, 0] := by decide +kernel

end Asn1go.Tests
