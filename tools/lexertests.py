"""Writes lean/Verif/Tests/Lexer.lean from /repo/lexer_test.go."""
import re
src = open('/repo/lexer_test.go').read()
out = ['''import Verif.Props.Lexer

/-! The tests of /repo/lexer_test.go, run on the model (written by tools/lexertests.py).  These are tests of the model, not proofs of
properties: they show that it does what the authors of the code expect.  `TestPeekRunes` is left out (`peekRunes` is modelled only for the
lengths the lexer uses). -/

namespace Asn1go.Tests

open Asn1go.Props

/-- lexer_test.go:19-34 `testLexem` -/
def lexem (input : Str) : Option (Int × Str × Option (Int × ErrMsg)) :=
  (lex asciiUnicode (LexState.init input .eof) {}).map fun r => (r.1, r.2.1.name, r.2.2.err)

/-- lexer_test.go:14-17 `testLexemType` -/
def lexemType (input : Str) : Option (Int × Option (Int × ErrMsg)) :=
  (lex asciiUnicode (LexState.init input .eof) {}).map fun r => (r.1, r.2.2.err)

/-- lexer_test.go:36-51 `testNumber` -/
def lexemNumber (input : Str) : Option (Int × Int × Option (Int × ErrMsg)) :=
  (lex asciiUnicode (LexState.init input .eof) {}).map fun r => (r.1, r.2.1.number, r.2.2.err)

/-- Codes and numbers of the first `n` calls of `Lex`. -/
def lexems : Nat → LexState → LVal → List (Int × Int)
  | 0, _, _ => []
  | n + 1, st, lval =>
    match lex asciiUnicode st lval with
    | none => []
    | some (code, lval', st') => (code, lval'.number) :: lexems n st' lval'

''']


def lit(s):
    if s.startswith('`'):
        return '"' + s[1:-1].replace('\\', '\\\\').replace('"', '\\"').replace('\n', '\\n').replace('\t', '\\t') + '"'
    return s


STR = r'("(?:\\.|[^"])*"|`[^`]*`)'
for m in re.finditer(r'^func (Test\w+)\(t \*testing\.T\) \{\n(.*?)^\}', src, re.S | re.M):
    name, body = m.groups()
    l0 = src[:m.start()].count('\n') + 1
    l1 = src[:m.end()].count('\n') + 1
    props = []
    for c in re.finditer(r'^\t(testLexem|testLexemType|testNumber|testError)\(t, ', body, re.M):
        f = c.group(1)
        rest = body[c.end():]
        if f == 'testLexemType':
            a = re.match(STR + r', (\w+)\)', rest)
            props.append('lexemType (c! %s) = some (Tok.%s, none)' % (lit(a.group(1)), a.group(2)))
        elif f == 'testNumber':
            a = re.match(STR + r', Number\((\d+)\)\)', rest)
            props.append('lexemNumber (c! %s) = some (Tok.NUMBER, %s, none)' % (lit(a.group(1)), a.group(2)))
        elif f == 'testLexem':
            a = re.match(r'\w+, ' + STR + r', (\w+), ("[^"]*")\)', rest)
            props.append('lexem (c! %s) = some (Tok.%s, c! %s, none)' % (lit(a.group(1)), a.group(2), a.group(3)))
        elif f == 'testError':
            a = re.match(r'("[^"]*"), "line (\d+): token can not (contain two hyphens in a row|end on hyphen), got ([^"]*)"\)', rest)
            k = 'twoHyphens' if 'two' in a.group(3) else 'endsOnHyphen'
            props.append('(lexem (c! %s)).map (·.2.2) = some (some (%s, .%s (c! "%s")))' % (a.group(1), a.group(2), k, a.group(4)))
    if not props:
        continue
    out.append('/-- lexer_test.go:%d-%d %s -/\nexample : %s := by\n  and_intros <;> decide +kernel\n\n' % (l0, l1, name, ' ∧\n    '.join(props)))
out.append('''/-- lexer_test.go:89-104 TestNoSpacing -/
example : (lexems 2 (LexState.init (c! "myIdentifier(") .eof) {}).map (·.1) = [Tok.VALUEIDENTIFIER, Tok.OPEN_ROUND] := by
  decide +kernel

/-- lexer_test.go:291-328 TestRangeSynax -/
example : lexems 7 (LexState.init (c! "INTEGER (-2147483648..2147483647)") .eof) {} =
    [(Tok.INTEGER, 0), (Tok.OPEN_ROUND, 0), (Tok.MINUS, 0), (Tok.NUMBER, 2147483648), (Tok.RANGE_SEPARATOR, 2147483648),
      (Tok.NUMBER, 2147483647), (Tok.CLOSE_ROUND, 2147483647)] := by decide +kernel

/-- lexer_test.go:335-368 TestRealSyntax -/
example : (lexems 7 (LexState.init (c! "-1.2e5") .eof) {}).map (·.1) =
    [Tok.MINUS, Tok.NUMBER, Tok.DOT, Tok.NUMBER, Tok.EXPONENT, Tok.NUMBER, 0] ∧
    (lexems 6 (LexState.init (c! "-1.2 e5") .eof) {}).map (·.1) =
    [Tok.MINUS, Tok.NUMBER, Tok.DOT, Tok.NUMBER, Tok.VALUEIDENTIFIER, 0] := by decide +kernel

end Asn1go.Tests
''')
open('/verif/lean/Verif/Tests/Lexer.lean', 'w').write(''.join(out))
