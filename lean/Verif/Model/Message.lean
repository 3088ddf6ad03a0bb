import Verif.Model.Parser
import Verif.Model.Codegen

/-! Model of the text of syntax errors: `yyTokname` and `yyErrorMessage` (/repo/y.go:767-847).

`yyErrorVerbose` is set by /repo/parser.go:12 and `yyErrorMessages` (/repo/y.go:726-730) is empty, so neither is a
parameter.  Table accesses out of range give no suggestion here instead of a panic; they do not happen for states the
parser can be in (`expected_bounds`). -/

namespace Asn1go

/-- y.go:201-330 `yyToknames` -/
def yyToknames : List Str := [
  c! "$end", c! "error", c! "$unk", c! "WHITESPACE", c! "NEWLINE", c! "TYPEORMODULEREFERENCE",
  c! "VALUEIDENTIFIER", c! "NUMBER", c! "BSTRING", c! "XMLBSTRING", c! "HSTRING", c! "XMLHSTRING",
  c! "CSTRING", c! "XMLCSTRING", c! "ASSIGNMENT", c! "RANGE_SEPARATOR", c! "ELLIPSIS",
  c! "LEFT_VERSION_BRACKETS", c! "RIGHT_VERSION_BRACKETS", c! "XML_END_TAG_START", c! "XML_SINGLE_START_END",
  c! "XML_BOOLEAN_TRUE", c! "XML_BOOLEAN_FALSE", c! "XMLASN1TYPENAME", c! "EXPONENT", c! "OPEN_CURLY",
  c! "CLOSE_CURLY", c! "LESS", c! "GREATER", c! "COMMA", c! "DOT", c! "OPEN_ROUND", c! "CLOSE_ROUND",
  c! "OPEN_SQUARE", c! "CLOSE_SQUARE", c! "MINUS", c! "COLON", c! "EQUALS", c! "QUOTATION_MARK",
  c! "APOSTROPHE", c! "SPACE", c! "SEMICOLON", c! "AT", c! "PIPE", c! "EXCLAMATION", c! "CARET", c! "ABSENT",
  c! "ENCODED", c! "INTEGER", c! "RELATIVE_OID", c! "ABSTRACT_SYNTAX", c! "END", c! "INTERSECTION",
  c! "SEQUENCE", c! "ALL", c! "ENUMERATED", c! "ISO646String", c! "SET", c! "APPLICATION", c! "EXCEPT",
  c! "MAX", c! "SIZE", c! "AUTOMATIC", c! "EXPLICIT", c! "MIN", c! "STRING", c! "BEGIN", c! "EXPORTS",
  c! "MINUS_INFINITY", c! "SYNTAX", c! "BIT", c! "EXTENSIBILITY", c! "NULL", c! "T61String", c! "BMPString",
  c! "EXTERNAL", c! "NumericString", c! "TAGS", c! "BOOLEAN", c! "FALSE", c! "OBJECT", c! "TeletexString",
  c! "BY", c! "FROM", c! "ObjectDescriptor", c! "TRUE", c! "CHARACTER", c! "GeneralizedTime", c! "OCTET",
  c! "TYPE_IDENTIFIER", c! "CHOICE", c! "GeneralString", c! "OF", c! "UNION", c! "CLASS", c! "GraphicString",
  c! "OPTIONAL", c! "UNIQUE", c! "COMPONENT", c! "IA5String", c! "PATTERN", c! "UNIVERSAL", c! "COMPONENTS",
  c! "IDENTIFIER", c! "PDV", c! "UniversalString", c! "CONSTRAINED", c! "IMPLICIT", c! "PLUS_INFINITY",
  c! "UTCTime", c! "CONTAINING", c! "IMPLIED", c! "PRESENT", c! "UTF8String", c! "DEFAULT", c! "IMPORTS",
  c! "PrintableString", c! "VideotexString", c! "DEFINITIONS", c! "INCLUDES", c! "PRIVATE", c! "VisibleString",
  c! "EMBEDDED", c! "INSTANCE", c! "REAL", c! "WITH", c! "ANY", c! "DEFINED"
]

/-- y.go:767-774 `yyTokname` -/
def yyTokname (c : Int) : Str :=
  match (if 1 ≤ c then yyToknames[(c - 1).toNat]? else none) with
  | some w => if w ≠ [] then w else (c! "tok-") ++ intStr c
  | none => (c! "tok-") ++ intStr c

/-- y.go:806: the state has a shift of `tok`. -/
def shiftable (state : Nat) (tok : Int) : Bool :=
  match Tab.yyPact.at state with
  | .error _ => false
  | .ok base =>
    let n := base + tok
    0 ≤ n && n < yyLast &&
      match Tab.yyAct.at n with
      | .error _ => false
      | .ok a => match Tab.yyChk.at a with
        | .error _ => false
        | .ok c => c == tok

/-- y.go:800-812: append the shiftable ones of the tokens to at most four; `none`: there are more. -/
def shiftables (state : Nat) : List Int → List Int → Option (List Int)
  | [], acc => some acc
  | t :: l, acc =>
    if shiftable state t then
      if acc.length = 4 then none else shiftables state l (acc ++ [t])
    else shiftables state l acc

/-- y.go:821-835: append the tokens of the state's exceptions; `none`: there are more than four tokens, or the
default is not an error. -/
def exceptions : List Int → List Int → Option (List Int)
  | t :: a :: l, acc =>
    if t < 0 then if a ≠ 0 then none else some acc
    else if t < 4 ∨ a = 0 then exceptions l acc
    else if acc.length = 4 then none
    else exceptions l (acc ++ [t])
  | _, _ => none

/-- y.go:800-835: the tokens a message for the state lists as expected; `none`: it lists none. -/
def expected (state : Nat) : Option (List Int) := do
  let l ← shiftables state ((List.range 125).map fun i : Nat => (i : Int) + 4) []
  match Tab.yyDef.at state with
  | .error _ => none
  | .ok d =>
    if d = -2 then
      match excaFind state Tab.yyExca.toList with
      | .error _ => none
      | .ok e => exceptions e l
    else some l

/-- y.go:838-846: the list appended to the message. -/
def expecting : List Int → Str
  | [] => []
  | t :: l => (c! ", expecting ") ++ yyTokname t ++ l.flatMap fun t => (c! " or ") ++ yyTokname t

/-- y.go:785-847 `yyErrorMessage` -/
def yyErrorMessage (state : Nat) (lookAhead : Int) : Str :=
  (c! "syntax error: unexpected ") ++ yyTokname lookAhead ++
    match expected state with
    | none => []
    | some l => expecting l

end Asn1go
