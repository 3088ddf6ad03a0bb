import Verif.Model.Lexer

/-! Declarative lexical specification: what text a token covers, independent of the scanner loops.
Only the character classes (`Unicode`, ASN.1 white space and line ends) and the token codes are shared
with the model. -/

namespace Asn1go.Spec

open Asn1go

/-- ASN.1 white space characters: HT, LF, VT, FF, CR, SP. -/
def White (c : Char) : Prop := c.toNat ∈ [9, 10, 11, 12, 13, 32]

/-- ASN.1 line-end characters: LF, VT, FF, CR. -/
def LineEnd (c : Char) : Prop := c.toNat ∈ [10, 11, 12, 13]

instance (c : Char) : Decidable (White c) := by unfold White; infer_instance
instance (c : Char) : Decidable (LineEnd c) := by unfold LineEnd; infer_instance

/-- Number of line-end characters in a text. -/
def lineEnds (s : Str) : Nat := s.countP (fun c => decide (LineEnd c))

/-- `LineTo t r`: a line comment whose text after the opening `--` is `t` ends so that `r` is left:
after the first `--` or line end in `t`, or at the end of the text. -/
inductive LineTo : Str → Str → Prop
  | eof : LineTo [] []
  | lineEnd (c : Char) (t : Str) : LineEnd c → LineTo (c :: t) t
  | hyphens (t : Str) : LineTo ('-' :: '-' :: t) t
  | char (c : Char) (t r : Str) : ¬ LineEnd c → ¬ (c = '-' ∧ t.head? = some '-') →
      LineTo t r → LineTo (c :: t) r

/-- `BlockTo t r`: a block comment whose text after the opening `/*` is `t` ends with its matching
`*/`, nested comments being skipped, so that `r` is left. -/
inductive BlockTo : Str → Str → Prop
  | close (t : Str) : BlockTo ('*' :: '/' :: t) t
  | nest (t m r : Str) : BlockTo t m → BlockTo m r → BlockTo ('/' :: '*' :: t) r
  | char (c : Char) (t r : Str) : ¬ (c = '*' ∧ t.head? = some '/') → ¬ (c = '/' ∧ t.head? = some '*') →
      BlockTo t r → BlockTo (c :: t) r

/-- The text `t` after `/*` contains no matching `*/`. -/
def BlockOpen (t : Str) : Prop := ¬ ∃ r, BlockTo t r

/-- What the lexer skips between tokens, *as implemented*.  Line comments directly starting with a third
hyphen and block comments directly starting with a slash end at once (see C16, C17). -/
inductive SkipTo : Str → Str → Prop
  | done (t : Str) : SkipTo t t
  | white (c : Char) (t r : Str) : White c → SkipTo t r → SkipTo (c :: t) r
  | line (t m r : Str) : t.head? ≠ some '-' → LineTo t m → SkipTo m r → SkipTo ('-' :: '-' :: t) r
  | line3 (t r : Str) : SkipTo t r → SkipTo ('-' :: '-' :: '-' :: t) r
  | block (t m r : Str) : t.head? ≠ some '/' → BlockTo t m → SkipTo m r → SkipTo ('/' :: '*' :: t) r
  | blockSlash (t r : Str) : SkipTo t r → SkipTo ('/' :: '*' :: '/' :: t) r
  | blockOpen (t : Str) : t.head? ≠ some '/' → BlockOpen t → SkipTo ('/' :: '*' :: t) []

/-- The text does not begin with white space or a comment. -/
def NoSkip (t : Str) : Prop :=
  (∀ c, t.head? = some c → ¬ White c) ∧ ¬ (['-', '-'] <+: t) ∧ ¬ (['/', '*'] <+: t)

/-- Characters of words. -/
def WordChar (u : Unicode) (c : Char) : Prop := u.isLetter c = true ∨ u.isDigit c = true ∨ c = '-'

/-- `w` is all of the characters with property `p` at the start of `w ++ rest`. -/
def Maximal (p : Char → Prop) (w rest : Str) : Prop :=
  (∀ c ∈ w, p c) ∧ ∀ c, rest.head? = some c → ¬ p c

/-- A well-formed word: starts with a letter, has word characters only, does not end in a hyphen and
has no two hyphens in a row. -/
structure Word (u : Unicode) (w : Str) : Prop where
  letter : ∃ c cs, w = c :: cs ∧ u.isLetter c = true
  chars : ∀ c ∈ w, WordChar u c
  last : w.getLast? ≠ some '-'
  hyphens : ¬ (['-', '-'] <:+: w)

/-- The decimal value of a digit string, by weight of position. -/
def decimal : Str → Nat
  | [] => 0
  | c :: cs => (c.toNat - 48) * 10 ^ cs.length + decimal cs

/-- Fixed symbols: spelling and token code, longest spelling first where one is a prefix of another. -/
def symbols : List (Str × Int) := [
  (c! "::=", Tok.ASSIGNMENT), (c! "...", Tok.ELLIPSIS), (c! "..", Tok.RANGE_SEPARATOR),
  (c! "[[", Tok.LEFT_VERSION_BRACKETS), (c! "]]", Tok.RIGHT_VERSION_BRACKETS),
  (c! "{", Tok.OPEN_CURLY), (c! "}", Tok.CLOSE_CURLY), (c! "<", Tok.LESS), (c! ">", Tok.GREATER),
  (c! ",", Tok.COMMA), (c! ".", Tok.DOT), (c! "(", Tok.OPEN_ROUND), (c! ")", Tok.CLOSE_ROUND),
  (c! "[", Tok.OPEN_SQUARE), (c! "]", Tok.CLOSE_SQUARE), (c! "-", Tok.MINUS), (c! ":", Tok.COLON),
  (c! "=", Tok.EQUALS), (c! "\"", Tok.QUOTATION_MARK), (c! "'", Tok.APOSTROPHE),
  (c! ";", Tok.SEMICOLON), (c! "@", Tok.AT), (c! "|", Tok.PIPE), (c! "!", Tok.EXCLAMATION),
  (c! "^", Tok.CARET)]

/-- What a token carries besides its code. -/
inductive Payload
  | none
  | name (w : Str)
  | number (repr : Str) (n : Nat)
  deriving DecidableEq, Repr

/-- `Lexeme u adj sp rest code p`: the spelling `sp`, followed by `rest`, is the token `code` with
payload `p`.  `adj` says that a number token stands directly before `sp`. -/
inductive Lexeme (u : Unicode) (adj : Bool) : Str → Str → Int → Payload → Prop
  | exponent (c : Char) (rest : Str) : adj = true → c = 'e' ∨ c = 'E' →
      Lexeme u adj [c] rest Tok.EXPONENT .none
  | keyword (w rest : Str) (code : Int) : ¬ (adj = true ∧ (w.head? = some 'e' ∨ w.head? = some 'E')) →
      Word u w → Maximal (WordChar u) w rest → (w, code) ∈ reservedWords →
      Lexeme u adj w rest code .none
  | typeReference (c : Char) (w rest : Str) : ¬ (adj = true ∧ (c = 'e' ∨ c = 'E')) →
      Word u (c :: w) → u.isUpper c = true → Maximal (WordChar u) (c :: w) rest →
      (∀ code, (c :: w, code) ∉ reservedWords) →
      Lexeme u adj (c :: w) rest Tok.TYPEORMODULEREFERENCE (.name (c :: w))
  | identifier (c : Char) (w rest : Str) : ¬ (adj = true ∧ (c = 'e' ∨ c = 'E')) →
      Word u (c :: w) → u.isUpper c = false → Maximal (WordChar u) (c :: w) rest →
      Lexeme u adj (c :: w) rest Tok.VALUEIDENTIFIER (.name (c :: w))
  | number (w rest : Str) : w ≠ [] → (∀ c ∈ w, 48 ≤ c.toNat ∧ c.toNat ≤ 57) →
      (∀ c, rest.head? = some c → u.isDigit c = false) → decimal w < 9223372036854775808 →
      Lexeme u adj w rest Tok.NUMBER (.number w (decimal w))
  | symbol (w rest : Str) (code : Int) : (w, code) ∈ symbols → NoSkip (w ++ rest) →
      (∀ w' code', (w', code') ∈ symbols → w' <+: w ++ rest → w'.length ≤ w.length) →
      Lexeme u adj w rest code .none

/-- `Tokens u adj t toks`: the text `t` consists of the tokens `toks` (codes with payload), separated and followed
by nothing but skipped text.  `adj` says that a number token stands directly before `t`. -/
inductive Tokens (u : Unicode) : Bool → Str → List (Int × Payload) → Prop
  | nil (adj : Bool) (t : Str) : SkipTo t [] → Tokens u adj t []
  | cons (adj : Bool) (t sp rest : Str) (code : Int) (p : Payload) (toks : List (Int × Payload)) :
      SkipTo t (sp ++ rest) → Lexeme u (adj && decide (t = sp ++ rest)) sp rest code p →
      Tokens u (code == Tok.NUMBER) rest toks → Tokens u adj t ((code, p) :: toks)

/-- The effect of a payload on the three fields the lexer may write. -/
def Payload.apply (p : Payload) (l : LVal) : LVal :=
  match p with
  | .none => l
  | .name w => { l with name := w }
  | .number repr n => { l with numberRepr := repr, number := (n : Int) }

end Asn1go.Spec
