import Verif.Model.Tokens

/-! Model of /repo/lexer.go.

Text is modelled as the list of runes that `bufio.Reader.ReadRune` still has to deliver, together with
what happens at the end of the data: `io.EOF`, or a persistent read error. -/

namespace Asn1go

/-- `c! "abc"` is the explicit list of characters `['a', 'b', 'c']`. -/
macro "c! " s:str : term => do
  let cs := s.getString.toList.map (fun c => Lean.Syntax.mkCharLit c)
  let cs := cs.toArray
  `([$cs,*])

/-- The functions of Go's package `unicode` used by lexer.go, with the facts about them that the
proofs use.  All facts are true of the Go package: ASCII behaviour, `Lu ⊆ L`, `L ∩ Nd = ∅`.
Called at lexer.go:116-189, 345-407 and 458-460. -/
structure Unicode where
  isLetter : Char → Bool
  isUpper : Char → Bool
  isDigit : Char → Bool
  letter_ascii : ∀ c : Char, c.toNat < 128 →
    isLetter c = ((65 ≤ c.toNat && c.toNat ≤ 90) || (97 ≤ c.toNat && c.toNat ≤ 122))
  upper_ascii : ∀ c : Char, c.toNat < 128 → isUpper c = (65 ≤ c.toNat && c.toNat ≤ 90)
  digit_ascii : ∀ c : Char, c.toNat < 128 → isDigit c = (48 ≤ c.toNat && c.toNat ≤ 57)
  upper_letter : ∀ c, isUpper c = true → isLetter c = true
  letter_not_digit : ∀ c, isLetter c = true → isDigit c = false

/-- The ASCII-only instance, used for concrete examples.  Not in the code. -/
def asciiUnicode : Unicode where
  isLetter c := (65 ≤ c.toNat && c.toNat ≤ 90) || (97 ≤ c.toNat && c.toNat ≤ 122)
  isUpper c := 65 ≤ c.toNat && c.toNat ≤ 90
  isDigit c := 48 ≤ c.toNat && c.toNat ≤ 57
  letter_ascii := fun _ _ => rfl
  upper_ascii := fun _ _ => rfl
  digit_ascii := fun _ _ => rfl
  upper_letter := fun c h => by simp at h ⊢; omega
  letter_not_digit := fun c h => by
    simp at h ⊢; omega

/-- What the underlying reader does after its last rune: `io.EOF`, or another error that every later
read returns again (the error value is immaterial).  For lexer.go:254, 275 and 293. -/
inductive ReadEnd
  | eof
  | fail
  deriving DecidableEq, Repr

/-- The error messages stored by `lex.Error`: lexer.go:125,151,236,355,371,394 and y.go:788-847
(syntax error in parser state `state` at internal token `tok`).  Messages are kept symbolic. -/
inductive ErrMsg
  | readFailed
  | unexpectedCharacter (c : Char)
  | endsOnHyphen (label : Str)
  | twoHyphens (label : Str)
  | badNumber (repr : Str)
  | syntaxError (state : Int) (tok : Int)
  deriving DecidableEq, Repr

/-- lexer.go:101-111 `MyLexer` without `result` (kept in the parser state): unread runes, end of data,
stored error (line number as printed, message), `lastWasNumber`, `lineNo`. -/
structure LexState where
  rest : Str
  fin : ReadEnd
  err : Option (Int × ErrMsg) := none
  lastWasNumber : Bool := false
  lineNo : Int := 0
  deriving DecidableEq, Repr

/-- The three fields of `yySymType` (y.go:15-73) written by the lexer. -/
structure LVal where
  name : Str := []
  numberRepr : Str := []
  number : Int := 0
  deriving DecidableEq, Repr

/-- Result of reading one rune.  lexer.go:253-259 -/
inductive ReadRes
  | rune (c : Char)
  | eof
  | fail
  deriving DecidableEq, Repr

/-- lexer.go:414-437 -/
def isWhitespace (c : Char) : Bool :=
  c.toNat == 9 || c.toNat == 10 || c.toNat == 11 || c.toNat == 12 || c.toNat == 13 || c.toNat == 32

/-- lexer.go:439-456 -/
def isNewline (c : Char) : Bool :=
  c.toNat == 10 || c.toNat == 11 || c.toNat == 12 || c.toNat == 13

/-- lexer.go:458-460 -/
def isIdentifierChar (u : Unicode) (c : Char) : Bool :=
  u.isLetter c || u.isDigit c || c == '-'

/-- lexer.go:253-259.  At the end of the data `ReadRune` returns rune 0, which is not a newline. -/
def readRune (st : LexState) : ReadRes × LexState :=
  match st.rest with
  | [] => ((match st.fin with | .eof => .eof | .fail => .fail), st)
  | c :: cs => (.rune c, { st with rest := cs, lineNo := if isNewline c then st.lineNo + 1 else st.lineNo })

/-- lexer.go:241-251.  `c` is the rune read by the immediately preceding `ReadRune`; every call site
unreads directly after a successful read, so `UnreadRune` does not fail and the panic is unreachable. -/
def unreadRune (c : Char) (st : LexState) : LexState :=
  { st with rest := c :: st.rest, lineNo := if isNewline c then st.lineNo - 1 else st.lineNo }

/-- lexer.go:261-264, 292-298: next rune without consuming it; `none` stands for the rune 0 returned at
the end of the data (it is only compared with `-`, `*`, `.`, `[`, `]` and newlines). -/
def peekRune (st : LexState) : Option Char := st.rest.head?

/-- lexer.go:270-290 `peekRunes(2) == [a, b]`: `none` means that the call does not return, which
happens when fewer than two runes are left and the reader fails with an error other than EOF. -/
def peekTwo (a b : Char) (st : LexState) : Option Bool :=
  match st.rest with
  | x :: y :: _ => some (x == a && y == b)
  | _ => match st.fin with
    | .eof => some false
    | .fail => none

/-- lexer.go:266-268 (`Discard` counts bytes; the runes discarded are all one byte long). -/
def discard (n : Nat) (st : LexState) : LexState := { st with rest := st.rest.drop n }

/-- lexer.go:410-412 -/
def LexState.error (st : LexState) (m : ErrMsg) : LexState := { st with err := some (st.lineNo + 1, m) }

/-- lexer.go:300-315 as a function of (`lastIsHyphen`, unread runes, line number); `none`: the loop does
not terminate (a persistent read error yields rune 0 for ever). -/
def skipLineCommentGo (fin : ReadEnd) : Bool → Str → Int → Option (Str × Int)
  | _, [], ln => match fin with
    | .eof => some ([], ln)
    | .fail => none
  | lastIsHyphen, r :: cs, ln =>
    let ln' := if isNewline r then ln + 1 else ln
    if isNewline r then some (cs, ln')
    else if r == '-' then
      if lastIsHyphen then some (cs, ln') else skipLineCommentGo fin true cs ln'
    else skipLineCommentGo fin false cs ln'

/-- lexer.go:300-315 -/
def skipLineComment (st : LexState) : Option LexState :=
  (skipLineCommentGo st.fin false st.rest st.lineNo).map
    fun (r, ln) => { st with rest := r, lineNo := ln }

/-- lexer.go:317-343 as a function of (`lastIsOpeningSlash`, `lastIsClosingStar`, unread runes, line
number).  The first argument is recursion fuel; `none` means not terminating.  The fuel used below is
never exhausted (`skipBlockComment_eq`), so `none` arises only from a persistent read error. -/
def skipBlockCommentGo (fin : ReadEnd) : Nat → Bool → Bool → Str → Int → Option (Str × Int)
  | 0, _, _, _, _ => none
  | fuel + 1, lastIsOpeningSlash, lastIsClosingStar, rest, ln =>
    match rest with
    | [] => match fin with
      | .eof => some ([], ln)
      | .fail => none
    | r :: cs =>
      let ln' := if isNewline r then ln + 1 else ln
      if r == '/' then
        if lastIsClosingStar then some (cs, ln')
        else skipBlockCommentGo fin fuel true lastIsClosingStar cs ln'
      else if r == '*' then
        if lastIsOpeningSlash then
          match skipBlockCommentGo fin fuel false false cs ln' with
          | none => none
          | some (cs', ln'') => skipBlockCommentGo fin fuel false false cs' ln''
        else skipBlockCommentGo fin fuel lastIsOpeningSlash true cs ln'
      else skipBlockCommentGo fin fuel false false cs ln'

/-- lexer.go:317-343 -/
def skipBlockComment (st : LexState) : Option LexState :=
  (skipBlockCommentGo st.fin (st.rest.length + 1) false false st.rest st.lineNo).map
    fun (r, ln) => { st with rest := r, lineNo := ln }

/-- lexer.go:350-374: the loop of `consumeWord` as a function of (`acc`, `lastR`, unread runes, line
number).  A read error other than EOF gives rune 0, which is not an identifier character, so it takes
the same branch as EOF (the later `err != nil` and `!isIdentifierChar` branches are dead code). -/
def consumeWordGo (u : Unicode) : Str → Char → Str → Int → Except ErrMsg Str × Str × Int
  | acc, _, [], ln =>
    if acc.getLast? == some '-' then (.error (.endsOnHyphen acc), [], ln) else (.ok acc, [], ln)
  | acc, lastR, r :: cs, ln =>
    let ln' := if isNewline r then ln + 1 else ln
    if isWhitespace r || !isIdentifierChar u r then
      if acc.getLast? == some '-' then (.error (.endsOnHyphen acc), cs, ln')
      else
        -- lexer.go:358 unreadRune
        (.ok acc, r :: cs, if isNewline r then ln' - 1 else ln')
    else if lastR == '-' && r == '-' then (.error (.twoHyphens (acc ++ [r])), cs, ln')
    else consumeWordGo u (acc ++ [r]) r cs ln'

/-- lexer.go:345-375.  The first rune is read without line counting. -/
def consumeWord (u : Unicode) (st : LexState) : Except ErrMsg Str × LexState :=
  match st.rest with
  | [] => (.ok [], st)  -- not reached: the caller has just unread a rune
  | r :: cs =>
    match consumeWordGo u [r] r cs st.lineNo with
    | (res, rest, ln) => (res, { st with rest := rest, lineNo := ln })

/-- Decimal value of a list of digit characters (most significant first), continuing from `acc`.  For lexer.go:392. -/
def decValue (acc : Nat) (s : Str) : Nat := s.foldl (fun a c => a * 10 + (c.toNat - 48)) acc

/-- `strconv.Atoi` on a non-empty text without sign: fails on a rune other than ASCII digits and on values
that do not fit a 64-bit `int`.  Called at lexer.go:392. -/
def atoi (s : Str) : Option Int :=
  if s.all (fun c => 48 ≤ c.toNat && c.toNat ≤ 57) && !s.isEmpty then
    let v := decValue 0 s
    if v < 9223372036854775808 then some (v : Int) else none  -- 2 ^ 63
  else none

/-- lexer.go:385-406: the loop of `consumeNumber`: digits read, unread runes, line number. -/
def consumeNumberGo (u : Unicode) : Str → Str → Int → Str × Str × Int
  | acc, [], ln => (acc, [], ln)
  | acc, r :: cs, ln =>
    let ln' := if isNewline r then ln + 1 else ln
    if !u.isDigit r then
      -- lexer.go:389 unreadRune
      (acc, r :: cs, if isNewline r then ln' - 1 else ln')
    else consumeNumberGo u (acc ++ [r]) cs ln'

/-- lexer.go:377-407 -/
def consumeNumber (u : Unicode) (st : LexState) (lval : LVal) : Int × LVal × LexState :=
  match st.rest with
  | [] => (-1, lval, st.error .readFailed)  -- not reached: the caller has just unread a rune
  | r :: cs =>
    match consumeNumberGo u [r] cs st.lineNo with
    | (repr, rest, ln) =>
      let st' := { st with rest := rest, lineNo := ln }
      match atoi repr with
      | none => (-1, lval, st'.error (.badNumber repr))
      | some i => (Tok.NUMBER, { lval with numberRepr := repr, number := i }, st')

/-- lexer.go:191-239 -/
def consumeSingleSymbol (r : Char) (st : LexState) : Int × LexState :=
  if r == '{' then (Tok.OPEN_CURLY, st)
  else if r == '}' then (Tok.CLOSE_CURLY, st)
  else if r == '<' then (Tok.LESS, st)
  else if r == '>' then (Tok.GREATER, st)
  else if r == ',' then (Tok.COMMA, st)
  else if r == '.' then (Tok.DOT, st)
  else if r == '(' then (Tok.OPEN_ROUND, st)
  else if r == ')' then (Tok.CLOSE_ROUND, st)
  else if r == '[' then (Tok.OPEN_SQUARE, st)
  else if r == ']' then (Tok.CLOSE_SQUARE, st)
  else if r == '-' then (Tok.MINUS, st)
  else if r == ':' then (Tok.COLON, st)
  else if r == '=' then (Tok.EQUALS, st)
  else if r == '"' then (Tok.QUOTATION_MARK, st)
  else if r == '\'' then (Tok.APOSTROPHE, st)
  else if r == ' ' then (Tok.SPACE, st)
  else if r == ';' then (Tok.SEMICOLON, st)
  else if r == '@' then (Tok.AT, st)
  else if r == '|' then (Tok.PIPE, st)
  else if r == '!' then (Tok.EXCLAMATION, st)
  else if r == '^' then (Tok.CARET, st)
  else (-1, st.error (.unexpectedCharacter r))

/-- lexer.go:144-187: the body of `Lex` once a rune `r` that starts a lexeme has been read (`st` is the
state after reading it).  `none`: the call does not return. -/
def lexLexeme (u : Unicode) (lastWasNumber : Bool) (r : Char) (st : LexState) (lval : LVal) :
    Option (Int × LVal × LexState) :=
  if u.isLetter r then
    if lastWasNumber && (r == 'e' || r == 'E') then some (Tok.EXPONENT, lval, st)
    else
      match consumeWord u (unreadRune r st) with
      | (.error m, st') => some (-1, lval, st'.error m)
      | (.ok content, st') =>
        if u.isUpper r then
          match reservedWords.lookup content with
          | some code => some (code, lval, st')
          | none => some (Tok.TYPEORMODULEREFERENCE, { lval with name := content }, st')
        else some (Tok.VALUEIDENTIFIER, { lval with name := content }, st')
  else if u.isDigit r then
    some (consumeNumber u { unreadRune r st with lastWasNumber := true } lval)
  else
    match (if r == ':' then peekTwo ':' '=' st else some false) with
    | none => none
    | some true => some (Tok.ASSIGNMENT, lval, discard 2 st)
    | some false =>
      match (if r == '.' then peekTwo '.' '.' st else some false) with
      | none => none
      | some true => some (Tok.ELLIPSIS, lval, discard 2 st)
      | some false =>
        if r == '.' && peekRune st == some '.' then some (Tok.RANGE_SEPARATOR, lval, discard 1 st)
        else if r == '[' && peekRune st == some '[' then
          some (Tok.LEFT_VERSION_BRACKETS, lval, discard 1 st)
        else if r == ']' && peekRune st == some ']' then
          some (Tok.RIGHT_VERSION_BRACKETS, lval, discard 1 st)
        else
          match consumeSingleSymbol r st with
          | (code, st') => some (code, lval, st')

/-- lexer.go:119-188: the loop of `Lex`; the first argument is fuel, which is never exhausted
(`lexGo_fuel`). -/
def lexGo (u : Unicode) : Nat → Bool → LexState → LVal → Option (Int × LVal × LexState)
  | 0, _, _, _ => none
  | fuel + 1, lastWasNumber, st, lval =>
    match readRune st with
    | (.eof, st') => some (0, lval, st')
    | (.fail, st') => some (-1, lval, st'.error .readFailed)
    | (.rune r, st') =>
      if isWhitespace r then lexGo u fuel false st' lval
      else if r == '-' && peekRune st' == some '-' then
        match skipLineComment st' with
        | none => none
        | some st'' => lexGo u fuel false st'' lval
      else if r == '/' && peekRune st' == some '*' then
        match skipBlockComment st' with
        | none => none
        | some st'' => lexGo u fuel false st'' lval
      else lexLexeme u lastWasNumber r st' lval

/-- lexer.go:116-189 `Lex`: token code (0 at end of input, -1 on error), updated symbol value and lexer
state; `none` if the call does not return. -/
def lex (u : Unicode) (st : LexState) (lval : LVal) : Option (Int × LVal × LexState) :=
  lexGo u (st.rest.length + 1) st.lastWasNumber { st with lastWasNumber := false } lval

/-- parser.go:22-24: a fresh lexer. -/
def LexState.init (text : Str) (fin : ReadEnd) : LexState := { rest := text, fin := fin }

end Asn1go
