import Verif.Proofs.Lex6

/-! Properties of the lexer: C10–C14, C16–C20. -/

namespace Asn1go.Props

open Asn1go Spec

/-! ### C10: progress -/

/-- C10: a call of `Lex` removes a non-empty prefix of the unread text, or the text is used up and the call reports
the end of input (or a failed read). -/
theorem C10_progress (u : Unicode) (st st' : LexState) (lval lval' : LVal) (code : Int)
    (h : lex u st lval = some (code, lval', st')) :
    (∃ eaten, eaten ≠ [] ∧ st.rest = eaten ++ st'.rest) ∨ (st'.rest = [] ∧ code ≤ 0) := by
  rcases lex_consumes h with hc | hc
  · left
    obtain ⟨eaten, he⟩ := (lex_post h).adv.suffix
    refine ⟨eaten, ?_, he.symm⟩
    rintro rfl
    simp only [List.nil_append] at he
    rw [he] at hc
    omega
  · exact Or.inr hc

/-- C10: on a text that ends properly every call of `Lex` returns. -/
theorem C10_returns (u : Unicode) (st : LexState) (lval : LVal) (hf : st.fin = .eof) :
    ∃ code lval' st', lex u st lval = some (code, lval', st') := by
  obtain ⟨⟨c, l, s⟩, h⟩ := Option.isSome_iff_exists.1 (lex_total (u := u) (lval := lval) hf)
  exact ⟨c, l, s, h⟩

/-- C10: a text has at most as many tokens as characters. -/
theorem C10_token_count (u : Unicode) (t : Str) (toks : List (Int × Payload)) (h : Tokens u false t toks) :
    toks.length ≤ t.length := h.length_le

/-- Example for C10: lexing `"  ab,"` eats `"  ab"`. -/
example : lex asciiUnicode (LexState.init (c! "  ab,") .eof) {} =
    some (Tok.VALUEIDENTIFIER, { name := c! "ab" }, { rest := c! ",", fin := .eof }) := by decide +kernel

/-! ### C11: faithful tokenisation -/

/-- C11: `Lex` reports a token exactly if the text consists of skipped text, the spelling of a lexeme, and the rest;
the lexeme found is the longest one, its code and payload are reported, and the rest stays unread. -/
theorem C11_faithful (u : Unicode) (st st' : LexState) (lval lval' : LVal) (code : Int)
    (hf : st.fin = .eof) (hcode : 0 < code) :
    lex u st lval = some (code, lval', st') ↔
      ∃ sp rest p, SkipTo st.rest (sp ++ rest) ∧
        Lexeme u (st.lastWasNumber && decide (st.rest = sp ++ rest)) sp rest code p ∧
        lval' = p.apply lval ∧
        st' = { rest := rest, fin := .eof, err := st.err, lastWasNumber := code == Tok.NUMBER
                lineNo := st.lineNo + lineEnds st.rest - lineEnds rest } := by
  constructor
  · intro h
    cases lex_cases h with
    | eof => omega
    | token sp rest _ p hs hx =>
      rw [adjAfter_eq hs] at hx
      exact ⟨sp, rest, p, hs, hx, rfl, by simp [LexState.after, LexState.at, hf]⟩
    | readFail => omega
    | bad => omega
  · rintro ⟨sp, rest, p, hs, hx, rfl, rfl⟩
    rw [← adjAfter_eq hs] at hx
    rw [lex_complete lval hf hs hx]
    simp [LexState.after, LexState.at, hf]

/-- C11: `Lex` reports the end of input exactly if nothing but skipped text is left. -/
theorem C11_end (u : Unicode) (st : LexState) (lval : LVal) (hf : st.fin = .eof) :
    (∃ lval' st', lex u st lval = some (0, lval', st')) ↔ SkipTo st.rest [] := by
  constructor
  · rintro ⟨lval', st', h⟩
    generalize hc : (0 : Int) = code at h
    cases lex_cases h with
    | eof hs _ => exact hs
    | token sp rest _ p hs hx => have := hx.code_range; omega
    | readFail => omega
    | bad => omega
  · intro hs
    exact ⟨_, _, lex_complete_eof lval hf hs⟩

/-- C11: a text has at most one token sequence. -/
theorem C11_unique (u : Unicode) (t : Str) (a b : List (Int × Payload)) (h : Tokens u false t a)
    (h' : Tokens u false t b) : a = b := h.det h'

/-- Example for C11: `..` is one token even when a third dot does not follow. -/
example : Tokens asciiUnicode false (c! "1..2")
    [(Tok.NUMBER, .number ['1'] 1), (Tok.RANGE_SEPARATOR, .none), (Tok.NUMBER, .number ['2'] 2)] := by
  refine .cons _ _ ['1'] (c! "..2") _ _ _ (.done _) (.number _ _ (by simp) (by decide) (by decide) (by decide)) ?_
  refine .cons _ _ (c! "..") ['2'] _ _ _ (.done _) (.symbol _ _ _ (by decide) ?_ ?_) ?_
  · exact ⟨by decide, by decide, by decide⟩
  · have : ∀ x ∈ symbols, x.1 <+: c! "..2" → x.1.length ≤ 2 := by decide
    exact fun w c h => this (w, c) h
  refine .cons _ _ ['2'] [] _ _ _ (.done _) (.number _ _ (by simp) (by decide) (by decide) (by decide)) ?_
  exact .nil _ _ (.done _)

/-! ### C12: identifiers -/

/-- C12: names reported by the lexer are well-formed words, and the kind of reference is decided by the case of the
first letter. -/
theorem C12_identifiers (u : Unicode) (st st' : LexState) (lval lval' : LVal) (code : Int)
    (h : lex u st lval = some (code, lval', st'))
    (hc : code = Tok.TYPEORMODULEREFERENCE ∨ code = Tok.VALUEIDENTIFIER) :
    Word u lval'.name ∧ ∃ c w, lval'.name = c :: w ∧ (code = Tok.TYPEORMODULEREFERENCE ↔ u.isUpper c = true) := by
  cases lex_cases h with
  | eof => rcases hc with hc | hc <;> cases hc
  | token sp rest _ p hs hx =>
    cases hx with
    | exponent => rcases hc with hc | hc <;> cases hc
    | keyword _ _ _ _ _ _ hm =>
      exfalso
      have := reservedWords_not_number _ hm
      rcases hc with rfl | rfl
      · exact absurd hm (by
          have : ∀ x ∈ reservedWords, x.2 ≠ Tok.TYPEORMODULEREFERENCE := by decide
          exact fun hm => this _ hm rfl)
      · exact absurd hm (by
          have : ∀ x ∈ reservedWords, x.2 ≠ Tok.VALUEIDENTIFIER := by decide
          exact fun hm => this _ hm rfl)
    | typeReference c w _ _ hw hup =>
      exact ⟨hw, c, w, rfl, by simp [hup]⟩
    | identifier c w _ _ hw hup =>
      exact ⟨hw, c, w, rfl, by simp only [hup]; decide⟩
    | number => rcases hc with hc | hc <;> cases hc
    | symbol _ _ _ hm =>
      exfalso
      rcases hc with rfl | rfl
      · have : ∀ x ∈ symbols, x.2 ≠ Tok.TYPEORMODULEREFERENCE := by decide
        exact this _ hm rfl
      · have : ∀ x ∈ symbols, x.2 ≠ Tok.VALUEIDENTIFIER := by decide
        exact this _ hm rfl
  | readFail => rcases hc with hc | hc <;> cases hc
  | bad => rcases hc with hc | hc <;> cases hc

/-- Example for C12 -/
example : (lex asciiUnicode (LexState.init (c! "a-b1 ::=") .eof) {}).map (fun r => (r.1, r.2.1.name)) =
    some (Tok.VALUEIDENTIFIER, c! "a-b1") := by decide +kernel

/-- Example for C12: a doubled hyphen is not part of a name. -/
example : (lex asciiUnicode (LexState.init (c! "a--b") .eof) {}).map (·.1) = some (-1) := by decide +kernel

/-! ### C13: reserved words -/

/-- C13: a word (not an exponent marker) is reported as the keyword it spells, if it spells one, and otherwise as a
reference with that name. -/
theorem C13_reserved_words (u : Unicode) (st : LexState) (lval : LVal) (w rest : Str) (hf : st.fin = .eof)
    (hr : st.rest = w ++ rest) (hflag : st.lastWasNumber = false) (hw : Word u w)
    (hm : Maximal (WordChar u) w rest) :
    ∃ code lval' st', lex u st lval = some (code, lval', st') ∧ st'.rest = rest ∧
      ((∃ c, (w, c) ∈ reservedWords) → (w, code) ∈ reservedWords ∧ lval' = lval) ∧
      ((∀ c, (w, c) ∉ reservedWords) →
        (code = Tok.TYPEORMODULEREFERENCE ∨ code = Tok.VALUEIDENTIFIER) ∧ lval'.name = w) := by
  have hadj : adjAfter st.lastWasNumber st.rest (w ++ rest) = false := by rw [hflag]; exact adjAfter_false _ _
  have hs : SkipTo st.rest (w ++ rest) := by rw [hr]; exact .done _
  by_cases hk : ∃ c, (w, c) ∈ reservedWords
  · obtain ⟨c, hc⟩ := hk
    have hx : Lexeme u (adjAfter st.lastWasNumber st.rest (w ++ rest)) w rest c .none :=
      .keyword _ _ _ (by simp [hadj]) hw hm hc
    exact ⟨_, _, _, lex_complete lval hf hs hx, rfl, fun _ => ⟨hc, rfl⟩, fun h => absurd hc (h c)⟩
  · obtain ⟨a, l, hal, hlet⟩ := hw.letter
    subst hal
    cases hu : u.isUpper a with
    | true =>
      have hx : Lexeme u (adjAfter st.lastWasNumber st.rest (a :: l ++ rest)) (a :: l) rest Tok.TYPEORMODULEREFERENCE
          (.name (a :: l)) := .typeReference _ _ _ (by rw [hadj]; simp) hw hu hm (fun c hc => hk ⟨c, hc⟩)
      exact ⟨_, _, _, lex_complete lval hf hs hx, rfl, fun h => absurd h hk, fun _ => ⟨Or.inl rfl, rfl⟩⟩
    | false =>
      have hx : Lexeme u (adjAfter st.lastWasNumber st.rest (a :: l ++ rest)) (a :: l) rest Tok.VALUEIDENTIFIER
          (.name (a :: l)) := .identifier _ _ _ (by rw [hadj]; simp) hw hu hm
      exact ⟨_, _, _, lex_complete lval hf hs hx, rfl, fun h => absurd h hk, fun _ => ⟨Or.inr rfl, rfl⟩⟩

/-- C13: a keyword token is only reported for that keyword's spelling; spelling and token determine each other. -/
theorem C13_keyword_spelling (u : Unicode) (st st' : LexState) (lval lval' : LVal) (w : Str) (code : Int)
    (hk : (w, code) ∈ reservedWords) (h : lex u st lval = some (code, lval', st')) :
    SkipTo st.rest (w ++ st'.rest) := by
  have inj : ∀ x ∈ reservedWords, ∀ y ∈ reservedWords, x.2 = y.2 → x.1 = y.1 := by decide +kernel
  have hpos := reservedWords_pos _ hk
  generalize hcc : code = code' at h
  cases lex_cases h with
  | eof => omega
  | token sp rest _ p hs hx =>
    cases hx with
    | exponent =>
      have : ∀ x ∈ reservedWords, x.2 ≠ Tok.EXPONENT := by decide
      exact absurd hcc (this _ hk)
    | keyword _ _ _ _ _ _ hm =>
      have := inj _ hk _ hm hcc
      simp only at this
      subst this
      exact hs
    | typeReference =>
      have : ∀ x ∈ reservedWords, x.2 ≠ Tok.TYPEORMODULEREFERENCE := by decide
      exact absurd hcc (this _ hk)
    | identifier =>
      have : ∀ x ∈ reservedWords, x.2 ≠ Tok.VALUEIDENTIFIER := by decide
      exact absurd hcc (this _ hk)
    | number =>
      have : ∀ x ∈ reservedWords, x.2 ≠ Tok.NUMBER := by decide
      exact absurd hcc (this _ hk)
    | symbol _ _ _ hm =>
      have : ∀ x ∈ reservedWords, ∀ y ∈ symbols, x.2 ≠ y.2 := by decide +kernel
      exact absurd hcc (this _ hk _ hm)
  | readFail => omega
  | bad => omega

/-- Example for C13: `SEQUENCE` is a keyword, `SEQUENCES` is not. -/
example : (lex asciiUnicode (LexState.init (c! "SEQUENCE{") .eof) {}).map (·.1) = some Tok.SEQUENCE ∧
    (lex asciiUnicode (LexState.init (c! "SEQUENCES{") .eof) {}).map (·.1) = some Tok.TYPEORMODULEREFERENCE := by
  decide +kernel

/-! ### C14: numbers -/

/-- C14: a number token carries the decimal value of its digits, which fits a 64-bit int. -/
theorem C14_value (u : Unicode) (st st' : LexState) (lval lval' : LVal)
    (h : lex u st lval = some (Tok.NUMBER, lval', st')) :
    (∀ c ∈ lval'.numberRepr, '0' ≤ c ∧ c ≤ '9') ∧ lval'.number = decimal lval'.numberRepr ∧
      0 ≤ lval'.number ∧ lval'.number < 9223372036854775808 ∧
      SkipTo st.rest (lval'.numberRepr ++ st'.rest) := by
  generalize hcc : Tok.NUMBER = code' at h
  cases lex_cases h with
  | eof => cases hcc
  | token sp rest _ p hs hx =>
    cases hx with
    | exponent => cases hcc
    | keyword _ _ _ _ _ _ hm => exact absurd hcc.symm (by simpa using reservedWords_not_number _ hm)
    | typeReference => cases hcc
    | identifier => cases hcc
    | number _ _ hne hd hn hlt =>
      refine ⟨?_, rfl, ?_, ?_, hs⟩
      · intro c hc
        have := hd c hc
        exact this
      · simp only [Payload.apply]; omega
      · simp only [Payload.apply]; omega
    | symbol _ _ _ hm => exact absurd hcc.symm (by simpa using symbols_not_number _ hm)
  | readFail => cases hcc
  | bad => cases hcc

/-- C14: a maximal run of decimal digits is a number token if its value fits and an error otherwise. -/
theorem C14_digits (u : Unicode) (st : LexState) (lval : LVal) (w rest : Str) (hf : st.fin = .eof)
    (hr : st.rest = w ++ rest) (hne : w ≠ []) (hd : ∀ c ∈ w, '0' ≤ c ∧ c ≤ '9')
    (hm : ∀ c, rest.head? = some c → u.isDigit c = false) :
    (decimal w < 9223372036854775808 → ∃ st', lex u st lval =
      some (Tok.NUMBER, { lval with numberRepr := w, number := decimal w }, st') ∧ st'.rest = rest) ∧
    (9223372036854775808 ≤ decimal w → ∃ lval' st' m, lex u st lval = some (-1, lval', st') ∧
      st'.err = some m) := by
  have hd' : ∀ c ∈ w, 48 ≤ c.toNat ∧ c.toNat ≤ 57 := fun c hc => hd c hc
  have hs : SkipTo st.rest (w ++ rest) := by rw [hr]; exact .done _
  constructor
  · intro hlt
    exact ⟨_, lex_complete lval hf hs (.number _ _ hne hd' hm hlt), rfl⟩
  · intro hge
    obtain ⟨code, lval', st', h⟩ := C10_returns u st lval hf
    obtain ⟨c, w', rfl⟩ := List.exists_cons_of_ne_nil hne
    have hc := hd' c (by simp)
    have hdig : u.isDigit c = true := by
      rw [u.digit_ascii c (by omega)]; simp [hc.1, hc.2]
    have hns : NoSkip (c :: w' ++ rest) :=
      noSkip_word u (by simp [isIdentifierChar, hdig]) (by rintro rfl; simp at hc)
    have key : ∀ sp rest' code p, SkipTo st.rest (sp ++ rest') →
        Lexeme u (adjAfter st.lastWasNumber st.rest (sp ++ rest')) sp rest' code p → False := by
      intro sp rest' code p hs' hx
      have heq := hs'.of_noSkip (by rw [hr]; exact hns)
      rw [hr] at heq
      have letter : ∀ a l, sp = a :: l → u.isLetter a = true → False := by
        rintro a l rfl ha
        simp only [List.cons_append, List.cons.injEq] at heq
        rw [heq.1, ] at ha
        simp [u.letter_not_digit c ha] at hdig
      cases hx with
      | exponent a _ _ ha =>
        refine letter a [] rfl ?_
        rcases ha with rfl | rfl <;> rw [u.letter_ascii _ (by decide)] <;> decide
      | keyword _ _ _ _ hw => obtain ⟨a, l, h1, h2⟩ := hw.letter; exact letter a l h1 h2
      | typeReference _ _ _ _ hw => obtain ⟨a, l, h1, h2⟩ := hw.letter; exact letter a l h1 h2
      | identifier _ _ _ _ hw => obtain ⟨a, l, h1, h2⟩ := hw.letter; exact letter a l h1 h2
      | number _ _ hne' hd2 hm2 hlt =>
        have dig : ∀ w : Str, (∀ c ∈ w, 48 ≤ c.toNat ∧ c.toNat ≤ 57) → ∀ c ∈ w, u.isDigit c = true := by
          intro w hw c hc
          have := hw c hc
          rw [u.digit_ascii c (by omega)]; simp [this.1, this.2]
        have := maximal_unique (p := fun c => u.isDigit c = true) (dig _ hd2) (dig _ hd')
          (fun c hc => by simp [hm2 c hc]) (fun c hc => by simp [hm c hc]) heq
        rw [this.1] at hlt
        omega
      | symbol _ _ _ hmem =>
        have hh : ∀ x ∈ symbols, ∀ a, x.1.head? = some a → ¬ (48 ≤ a.toNat ∧ a.toNat ≤ 57) ∧ x.1 ≠ [] := by decide
        cases hsp : sp with
        | nil =>
          subst hsp
          have : ∀ x ∈ symbols, x.1 ≠ [] := by decide
          exact this _ hmem rfl
        | cons a l =>
          rw [hsp] at heq hmem
          simp only [List.cons_append, List.cons.injEq] at heq
          exact (hh _ hmem a rfl).1 (by rw [heq.1]; exact hc)
    cases hcase : lex_cases h with
    | eof hs' _ =>
      have := hs'.of_noSkip (by rw [hr]; exact hns)
      rw [hr] at this; cases this
    | token sp rest' _ p hs' hx => exact (key _ _ _ _ hs' hx).elim
    | readFail hs' hf' => rw [hf] at hf'; cases hf'
    | bad a t _ _ hs' hn' hp =>
      rcases hp.err with ⟨_, m, hm⟩ | ⟨h, _⟩
      · exact ⟨_, _, _, h, hm⟩
      · omega

/-- Examples for C14: the largest int, and one more. -/
example : (lex asciiUnicode (LexState.init (c! "9223372036854775807 ") .eof) {}).map (fun r => (r.1, r.2.1.number)) =
    some (Tok.NUMBER, 9223372036854775807) ∧
    (lex asciiUnicode (LexState.init (c! "9223372036854775808 ") .eof) {}).map (·.1) = some (-1) := by
  decide +kernel

/-! ### C16: line comments -/

/-- What C16 claims. -/
def C16_statement : Prop :=
  ∀ (u : Unicode) (st : LexState) (lval : LVal) (t r : Str), st.fin = .eof → st.rest = '-' :: '-' :: t → LineTo t r →
    lex u st lval = lex u { st.at r with lastWasNumber := false } lval

/-- C16 does not hold of the code: in `---x` the third hyphen and the second one are taken for the closing `--`. -/
theorem C16_false : ¬ C16_statement := by
  intro h
  have ht : LineTo (c! "-x") [] :=
    .char _ _ _ (by decide) (by decide) (.char _ _ _ (by decide) (by decide) .eof)
  have := h asciiUnicode (LexState.init (c! "---x") .eof) {} (c! "-x") [] rfl rfl ht
  revert this
  decide +kernel

/-- C16, for comments whose text does not begin with a hyphen: after `--` the lexer resumes exactly after the next
`--` or line end (or at the end of the text), having counted the lines of the comment.  Missing for the full claim:
comments starting with three hyphens, for which it is false (`C16_false`). -/
theorem C16_line_comment_partial (u : Unicode) (st : LexState) (lval : LVal) (t r : Str) (hf : st.fin = .eof)
    (hr : st.rest = '-' :: '-' :: t) (hh : t.head? ≠ some '-') (hl : LineTo t r) :
    lex u st lval = lex u { st.at r with lastWasNumber := false } lval := by
  refine lex_skip lval hf (by rw [hr]; exact .line _ _ _ hh hl (.done _)) ?_
  rw [hr]
  intro he
  have := hl.suffix.length_le
  rw [← he] at this
  simp at this
  omega

/-- C16: every line comment has exactly one end. -/
theorem C16_end_unique (t : Str) : ∃ r, LineTo t r ∧ ∀ r', LineTo t r' → r' = r := by
  have ex : ∀ t, ∃ r, LineTo t r := by
    intro t
    induction t with
    | nil => exact ⟨[], .eof⟩
    | cons c t ih =>
      by_cases hc : LineEnd c
      · exact ⟨t, .lineEnd _ _ hc⟩
      · by_cases hh : c = '-' ∧ t.head? = some '-'
        · obtain ⟨rfl, hh⟩ := hh
          cases t with
          | nil => simp at hh
          | cons d t => simp at hh; subst hh; exact ⟨t, .hyphens t⟩
        · obtain ⟨r, hr⟩ := ih
          exact ⟨r, .char _ _ _ hc hh hr⟩
  obtain ⟨r, hr⟩ := ex t
  exact ⟨r, hr, fun r' hr' => hr'.det hr⟩

/-- What the code does with three hyphens instead: the comment is just these. -/
theorem C16_three_hyphens (u : Unicode) (st : LexState) (lval : LVal) (t : Str) (hf : st.fin = .eof)
    (hr : st.rest = '-' :: '-' :: '-' :: t) :
    lex u st lval = lex u { st.at t with lastWasNumber := false } lval := by
  refine lex_skip lval hf (by rw [hr]; exact .line3 _ _ (.done _)) ?_
  rw [hr]
  intro he
  have := congrArg List.length he
  simp at this
  omega

/-- C16, exactly: the one place where the lexer resumes after `--`, for every text. -/
theorem C16_exact_partial (u : Unicode) (st : LexState) (lval : LVal) (t : Str) (hf : st.fin = .eof)
    (hr : st.rest = '-' :: '-' :: t) :
    ∃ r, (t.head? = some '-' ∧ r = t.tail ∨ t.head? ≠ some '-' ∧ LineTo t r) ∧
      lex u st lval = lex u { st.at r with lastWasNumber := false } lval := by
  by_cases hh : t.head? = some '-'
  · cases t with
    | nil => simp at hh
    | cons c t =>
      simp only [List.head?_cons, Option.some.injEq] at hh
      subst hh
      exact ⟨t, .inl ⟨rfl, rfl⟩, C16_three_hyphens u st lval t hf hr⟩
  · obtain ⟨r, hl, _⟩ := C16_end_unique t
    exact ⟨r, .inr ⟨hh, hl⟩, C16_line_comment_partial u st lval t r hf hr hh hl⟩

/-- Example for C16: `-- a -- b` continues at `b`. -/
example : (lex asciiUnicode (LexState.init (c! "-- a -- b") .eof) {}).map (fun r => (r.1, r.2.1.name)) =
    some (Tok.VALUEIDENTIFIER, ['b']) := by decide +kernel

/-! ### C17: block comments -/

/-- What C17 claims. -/
def C17_statement : Prop :=
  ∀ (u : Unicode) (st : LexState) (lval : LVal) (t r : Str), st.fin = .eof → st.rest = '/' :: '*' :: t → BlockTo t r →
    lex u st lval = lex u { st.at r with lastWasNumber := false } lval

/-- C17 does not hold of the code: `/*/` alone is taken for a complete comment. -/
theorem C17_false : ¬ C17_statement := by
  intro h
  have ht : BlockTo (c! "/x*/") [] :=
    .char _ _ _ (by decide) (by decide) (.char _ _ _ (by decide) (by decide) (.close _))
  have := h asciiUnicode (LexState.init (c! "/*/x*/") .eof) {} (c! "/x*/") [] rfl rfl ht
  revert this
  decide +kernel

/-- C17, for comments whose text does not begin with a slash: the lexer resumes exactly after the matching `*/`.
Missing for the full claim: comments starting with `/*/`, for which it is false (`C17_false`). -/
theorem C17_block_comment_partial (u : Unicode) (st : LexState) (lval : LVal) (t r : Str) (hf : st.fin = .eof)
    (hr : st.rest = '/' :: '*' :: t) (hh : t.head? ≠ some '/') (hl : BlockTo t r) :
    lex u st lval = lex u { st.at r with lastWasNumber := false } lval := by
  refine lex_skip lval hf (by rw [hr]; exact .block _ _ _ hh hl (.done _)) ?_
  rw [hr]
  intro he
  have := hl.suffix.length_le
  rw [← he] at this
  simp at this
  omega

/-- C17: a block comment has at most one matching end. -/
theorem C17_end_unique (t r r' : Str) (h : BlockTo t r) (h' : BlockTo t r') : r = r' := h.det h'

/-- What the code does with `/*/` instead: the comment is just these. -/
theorem C17_slash (u : Unicode) (st : LexState) (lval : LVal) (t : Str) (hf : st.fin = .eof)
    (hr : st.rest = '/' :: '*' :: '/' :: t) :
    lex u st lval = lex u { st.at t with lastWasNumber := false } lval := by
  refine lex_skip lval hf (by rw [hr]; exact .blockSlash _ _ (.done _)) ?_
  rw [hr]
  intro he
  have := congrArg List.length he
  simp at this
  omega

/-- Example for `C17_slash`: after `/*/` the text goes on. -/
example : (lex asciiUnicode (LexState.init (c! "/*/ d */") .eof) {}).map (fun r => (r.1, r.2.1.name)) =
    some (Tok.VALUEIDENTIFIER, ['d']) := by decide +kernel

/-- Example for C17: comments nest. -/
example : (lex asciiUnicode (LexState.init (c! "/* a /* b */ c */ d") .eof) {}).map (fun r => (r.1, r.2.1.name)) =
    some (Tok.VALUEIDENTIFIER, ['d']) := by decide +kernel

/-! ### C18: unterminated comments -/

/-- What C18 claims: a comment without end swallows the rest of the text. -/
def C18_statement : Prop :=
  ∀ (u : Unicode) (st : LexState) (lval : LVal) (t : Str), st.fin = .eof →
    (st.rest = '-' :: '-' :: t ∧ (∀ c ∈ t, ¬ LineEnd c) ∧ ¬ ['-', '-'] <:+: t) ∨
      (st.rest = '/' :: '*' :: t ∧ BlockOpen t) →
    ∃ st', lex u st lval = some (0, lval, st') ∧ st'.err = st.err

/-- C18 does not hold of the code, for the reason C17 does not: `/*/x` is not an unterminated comment. -/
theorem C18_false : ¬ C18_statement := by
  intro h
  have ho : BlockOpen (c! "/x") := by
    rintro ⟨r, hr⟩
    cases hr with
    | char _ _ _ _ _ hr => cases hr with | char _ _ _ _ _ hr => cases hr
  obtain ⟨st', h1, h2⟩ := h asciiUnicode (LexState.init (c! "/*/x") .eof) {} (c! "/x") rfl (Or.inr ⟨rfl, ho⟩)
  have h3 : (lex asciiUnicode (LexState.init (c! "/*/x") .eof) {}).map (·.1) = some 0 := by rw [h1]; rfl
  revert h3
  decide +kernel

theorem lineTo_nil_of_open : ∀ (t : Str), (∀ c ∈ t, ¬ LineEnd c) → ¬ ['-', '-'] <:+: t → LineTo t [] := by
  intro t
  induction t with
  | nil => intro _ _; exact .eof
  | cons c t ih =>
    intro h1 h2
    refine .char _ _ _ (h1 c (by simp)) ?_ (ih (fun d hd => h1 d (by simp [hd])) ?_)
    · rintro ⟨rfl, hh⟩
      cases t with
      | nil => simp at hh
      | cons d t =>
        simp at hh; subst hh
        exact h2 ⟨[], t, rfl⟩
    · exact fun h => h2 (h.trans (List.suffix_cons _ _).isInfix)

/-- C18, except for comments that begin with `---` or `/*/`, for which it is false (`C18_false`). -/
theorem C18_unterminated_partial (u : Unicode) (st : LexState) (lval : LVal) (t : Str) (hf : st.fin = .eof)
    (h : (st.rest = '-' :: '-' :: t ∧ (∀ c ∈ t, ¬ LineEnd c) ∧ ¬ ['-', '-'] <:+: t ∧ t.head? ≠ some '-') ∨
      (st.rest = '/' :: '*' :: t ∧ BlockOpen t ∧ t.head? ≠ some '/')) :
    ∃ st', lex u st lval = some (0, lval, st') ∧ st'.err = st.err := by
  have hs : SkipTo st.rest [] := by
    rcases h with ⟨hr, h1, h2, h3⟩ | ⟨hr, h1, h2⟩
    · rw [hr]; exact .line _ _ _ h3 (lineTo_nil_of_open t h1 h2) (.done _)
    · rw [hr]; exact .blockOpen _ h2 h1
  exact ⟨_, lex_complete_eof lval hf hs, rfl⟩

/-- C17 and C18, exactly: what the lexer does after `/*`, for every text.  It resumes after a slash that follows at once; else
after the matching `*/`; else, if there is none, it reports the end of the input and no error. -/
theorem C18_exact_partial (u : Unicode) (st : LexState) (lval : LVal) (t : Str) (hf : st.fin = .eof)
    (hr : st.rest = '/' :: '*' :: t) :
    (∃ r, (t = '/' :: r ∨ t.head? ≠ some '/' ∧ BlockTo t r) ∧
      lex u st lval = lex u { st.at r with lastWasNumber := false } lval) ∨
    (t.head? ≠ some '/' ∧ BlockOpen t ∧ ∃ st', lex u st lval = some (0, lval, st') ∧ st'.rest = [] ∧ st'.err = st.err) := by
  by_cases hh : t.head? = some '/'
  · cases t with
    | nil => simp at hh
    | cons c t =>
      simp only [List.head?_cons, Option.some.injEq] at hh
      subst hh
      exact .inl ⟨t, .inl rfl, C17_slash u st lval t hf hr⟩
  · by_cases ho : BlockOpen t
    · refine .inr ⟨hh, ho, _, lex_complete_eof lval hf (by rw [hr]; exact .blockOpen _ hh ho), rfl, rfl⟩
    · obtain ⟨r, hl⟩ := Classical.not_not.mp ho
      exact .inl ⟨r, .inr ⟨hh, hl⟩, C17_block_comment_partial u st lval t r hf hr hh hl⟩

/-- C18, exactly, for line comments: a comment that is never closed ends the input unless a third hyphen closes it at once. -/
theorem C18_line_exact_partial (u : Unicode) (st : LexState) (lval : LVal) (t : Str) (hf : st.fin = .eof)
    (hr : st.rest = '-' :: '-' :: t) (h1 : ∀ c ∈ t, ¬ LineEnd c) (h2 : ¬ ['-', '-'] <:+: t) :
    if t.head? = some '-' then lex u st lval = lex u { st.at t.tail with lastWasNumber := false } lval
    else ∃ st', lex u st lval = some (0, lval, st') ∧ st'.rest = [] ∧ st'.err = st.err := by
  split
  · rename_i hh
    cases t with
    | nil => simp at hh
    | cons c t =>
      simp only [List.head?_cons, Option.some.injEq] at hh
      subst hh
      exact C16_three_hyphens u st lval t hf hr
  · rename_i hh
    exact ⟨_, lex_complete_eof lval hf (by rw [hr]; exact .line _ _ _ hh (lineTo_nil_of_open t h1 h2) (.done _)), rfl, rfl⟩

/-- Example for C18 -/
example : (lex asciiUnicode (LexState.init (c! "/* a /* b */ c") .eof) {}).map (fun r => (r.1, r.2.2.err)) =
    some (0, none) := by decide +kernel

/-! ### C19: line numbers -/

/-- C19: in every history of `Lex` calls the lexer's line count is the number of line ends in the text consumed, and an
error raised by a call carries that number plus one. -/
theorem C19_lines (u : Unicode) (text : Str) (fin : ReadEnd) (st st' : LexState) (lval lval' : LVal) (code : Int)
    (h : LexReach u text fin st) (hc : lex u st lval = some (code, lval', st')) :
    ∃ consumed, text = consumed ++ st'.rest ∧ st'.lineNo = lineEnds consumed ∧
      (code < 0 → ∃ m, st'.err = some ((lineEnds consumed : Int) + 1, m)) ∧ (0 ≤ code → st'.err = st.err) := by
  obtain ⟨hs, hl, _⟩ := LexReach.lines (.call _ _ _ _ _ h hc)
  obtain ⟨consumed, hcon⟩ := hs
  have hline : st'.lineNo = lineEnds consumed := by
    rw [← hcon, lineEnds_append] at hl
    omega
  refine ⟨consumed, hcon.symm, hline, ?_, ?_⟩
  · intro hneg
    rcases (lex_post hc).err with ⟨_, m, hm⟩ | ⟨h, _⟩
    · exact ⟨m, by rw [hm, hline]⟩
    · omega
  · intro hpos
    rcases (lex_post hc).err with ⟨h, _⟩ | ⟨_, h⟩
    · omega
    · exact h

/-- Example for C19: an error on the third line. -/
example : (lex asciiUnicode (LexState.init (c! "\n-- x\n #") .eof) {}).map (fun r => (r.1, r.2.2.err)) =
    some (-1, some (3, .unexpectedCharacter '#')) := by decide +kernel

/-! ### C20: printed tokens -/

/-- `Printable u sp code p`: the token `code` with payload `p` is written `sp`.  All tokens but the exponent marker are
covered. -/
inductive Printable (u : Unicode) : Str → Int → Payload → Prop
  | keyword (w : Str) (code : Int) : (w, code) ∈ reservedWords → Printable u w code .none
  | typeReference (c : Char) (w : Str) : Word u (c :: w) → u.isUpper c = true →
      (∀ code, (c :: w, code) ∉ reservedWords) → Printable u (c :: w) Tok.TYPEORMODULEREFERENCE (.name (c :: w))
  | identifier (c : Char) (w : Str) : Word u (c :: w) → u.isUpper c = false →
      Printable u (c :: w) Tok.VALUEIDENTIFIER (.name (c :: w))
  | number (w : Str) : w ≠ [] → (∀ c ∈ w, '0' ≤ c ∧ c ≤ '9') → decimal w < 9223372036854775808 →
      Printable u w Tok.NUMBER (.number w (decimal w))
  | symbol (w : Str) (code : Int) : (w, code) ∈ symbols → Printable u w code .none

/-- Reserved words are well-formed words. -/
theorem reservedWords_word (u : Unicode) : ∀ x ∈ reservedWords, Word u x.1 := by
  have h1 : ∀ x ∈ reservedWords, (∃ c cs, x.1 = c :: cs ∧ (65 ≤ c.toNat ∧ c.toNat ≤ 90)) := by
    have : ∀ x ∈ reservedWords, (match x.1 with | [] => false | c :: _ => decide (65 ≤ c.toNat ∧ c.toNat ≤ 90)) = true := by
      decide +kernel
    intro x hx
    have := this x hx
    split at this
    · cases this
    · rename_i c cs he
      exact ⟨c, cs, he, of_decide_eq_true this⟩
  have h2 : ∀ x ∈ reservedWords, ∀ c ∈ x.1, c.toNat < 128 ∧
      ((65 ≤ c.toNat ∧ c.toNat ≤ 90) ∨ (97 ≤ c.toNat ∧ c.toNat ≤ 122) ∨ (48 ≤ c.toNat ∧ c.toNat ≤ 57) ∨ c = '-') := by
    decide +kernel
  have h3 : ∀ x ∈ reservedWords, x.1.getLast? ≠ some '-' := by decide +kernel
  have h4 : ∀ x ∈ reservedWords, ¬ (['-', '-'] <:+: x.1) := by decide +kernel
  intro x hx
  refine ⟨?_, ?_, h3 x hx, h4 x hx⟩
  · obtain ⟨c, cs, he, hc⟩ := h1 x hx
    refine ⟨c, cs, he, ?_⟩
    rw [u.letter_ascii c (by omega)]
    simp [hc.1, hc.2]
  · intro c hc
    obtain ⟨h, h'⟩ := h2 x hx c hc
    rcases h' with h' | h' | h' | h'
    · left; rw [u.letter_ascii c h]; simp [h'.1, h'.2]
    · left; rw [u.letter_ascii c h]; simp [h'.1, h'.2]
    · right; left; rw [u.digit_ascii c h]; simp [h'.1, h'.2]
    · right; right; exact h'

/-- A printable token followed by white space or by nothing is a lexeme. -/
theorem Printable.lexeme {u : Unicode} {sp : Str} {code : Int} {p : Payload} (h : Printable u sp code p) (rest : Str)
    (hw : ∀ c, rest.head? = some c → White c) : Lexeme u false sp rest code p := by
  have hnw : ∀ c, rest.head? = some c → ¬ WordChar u c := by
    intro c hc hh
    have h1 := hw c hc
    have hlt : c.toNat < 128 := by
      simp only [White, List.mem_cons, List.not_mem_nil, or_false] at h1; omega
    have h2 : isWhitespace c = true := (isWhitespace_iff c).2 h1
    simp only [White, List.mem_cons, List.not_mem_nil, or_false] at h1
    rcases hh with hh | hh | hh
    · rw [u.letter_ascii c hlt] at hh; simp at hh; omega
    · rw [u.digit_ascii c hlt] at hh; simp at hh; omega
    · subst hh; revert h1; decide
  cases h with
  | keyword _ _ hm => exact .keyword _ _ _ (by simp) (reservedWords_word u _ hm) ⟨(reservedWords_word u _ hm).chars, hnw⟩ hm
  | typeReference c w hword hu hk => exact .typeReference _ _ _ (by simp) hword hu ⟨hword.chars, hnw⟩ hk
  | identifier c w hword hu => exact .identifier _ _ _ (by simp) hword hu ⟨hword.chars, hnw⟩
  | number _ hne hd hlt =>
    refine .number _ _ hne hd (fun c hc => ?_) hlt
    cases hdig : u.isDigit c
    · rfl
    · exact absurd (Or.inr (Or.inl hdig)) (hnw c hc)
  | symbol _ _ hm =>
    have hsym : ∀ (c : Char), White c → ∀ x ∈ symbols, ∀ y ∈ symbols, y.1 <+: x.1 ++ [c] → y.1.length ≤ x.1.length := by
      intro c hc x hx y hy hpre
      rcases List.prefix_concat_iff.1 hpre with h | h
      · exfalso
        have : ∀ y ∈ symbols, ∀ c ∈ y.1, c.toNat ∉ [9, 10, 11, 12, 13, 32] := by decide +kernel
        exact this y hy c (by rw [h]; simp) hc
      · exact h.length_le
    refine .symbol _ _ _ hm ?_ ?_
    · have h1 : ∀ x ∈ symbols, ∀ c, x.1.head? = some c → c.toNat ∉ [9, 10, 11, 12, 13, 32] := by
        have : ∀ x ∈ symbols, ∀ c ∈ x.1, c.toNat ∉ [9, 10, 11, 12, 13, 32] := by decide +kernel
        intro x hx c hc
        exact this x hx c (List.mem_of_mem_head? hc)
      have h2 : ∀ x ∈ symbols, x.1 = ['-'] ∨ (x.1.head? ≠ some '-' ∧ x.1.head? ≠ some '/' ∧ x.1 ≠ []) := by decide
      rcases h2 _ hm with h | ⟨h, h', h3⟩
      · simp only at h; subst h
        refine ⟨by rintro c hc; simp at hc; subst hc; decide, ?_, ?_⟩
        · rintro ⟨t, ht⟩
          simp at ht
          have := hw '-' (by rw [← ht]; rfl)
          revert this; decide
        · rintro ⟨t, ht⟩
          simp at ht
      · cases sp with
        | nil => contradiction
        | cons a l =>
          simp only [List.head?_cons, ne_eq, Option.some.injEq] at h h'
          refine ⟨fun c hc => ?_, ?_, ?_⟩
          · simp only [List.cons_append, List.head?_cons, Option.some.injEq] at hc
            subst hc
            exact h1 _ hm a rfl
          · rintro ⟨t, ht⟩; simp at ht; exact h ht.1.symm
          · rintro ⟨t, ht⟩; simp at ht; exact h' ht.1.symm
    · intro w' code' hm' hpre
      cases rest with
      | nil => simpa using hpre.length_le
      | cons c rest =>
        rcases Nat.lt_or_ge sp.length w'.length with hlt | hge
        · exfalso
          have h3 : w'.length ≤ sp.length + 1 ∨ sp.length + 1 ≤ w'.length := by omega
          have hp2 : sp ++ [c] <+: w' := by
            apply List.prefix_of_prefix_length_le (l₃ := sp ++ c :: rest) ⟨rest, by simp⟩ hpre
            simp; omega
          have : ∀ y ∈ symbols, ∀ c ∈ y.1, c.toNat ∉ [9, 10, 11, 12, 13, 32] := by decide +kernel
          exact this _ hm' c (hp2.subset (by simp)) (hw c rfl)
        · exact hge

/-- The text of a list of spellings, each followed by its own separator. -/
def joinWith : List (Str × Str) → Str
  | [] => []
  | (sp, sep) :: l => sp ++ sep ++ joinWith l

theorem SkipTo_white : ∀ (w r : Str), (∀ c ∈ w, White c) → SkipTo (w ++ r) r
  | [], r, _ => .done r
  | c :: w, r, h => .white _ _ _ (h c (by simp)) (SkipTo_white w r (fun d hd => h d (by simp [hd])))

/-- Tokens written with separators of white space between them lex back; `pre` is leading white space. -/
theorem tokens_of_printed {u : Unicode} : ∀ (l : List (Str × Int × Payload × Str)) (pre : Str) (adj : Bool),
    (∀ x ∈ l, Printable u x.1 x.2.1 x.2.2.1 ∧ (∀ c ∈ x.2.2.2, White c)) →
    (∀ x ∈ l.dropLast, x.2.2.2 ≠ []) → (∀ c ∈ pre, White c) → (pre = [] → adj = false) →
    Tokens u adj (pre ++ joinWith (l.map fun x => (x.1, x.2.2.2))) (l.map fun x => (x.2.1, x.2.2.1)) := by
  intro l
  induction l with
  | nil => intro pre adj _ _ hp _; exact .nil _ _ (by simpa [joinWith] using SkipTo_white pre [] hp)
  | cons x l ih =>
    intro pre adj h1 h2 hp hadj
    obtain ⟨sp, code, p, sep⟩ := x
    simp only [List.map_cons, joinWith]
    have hx := h1 (sp, code, p, sep) (by simp)
    have hrest : ∀ c, (sep ++ joinWith (l.map fun x => (x.1, x.2.2.2))).head? = some c → White c := by
      intro c hc
      cases sep with
      | cons d sep =>
        simp at hc; subst hc
        exact hx.2 d (by simp)
      | nil =>
        cases l with
        | nil => simp [joinWith] at hc
        | cons y l => exact absurd rfl (h2 (sp, code, p, []) (by simp))
    have hadj' : (adj && decide (pre ++ (sp ++ sep ++ joinWith (l.map fun x => (x.1, x.2.2.2))) =
        sp ++ (sep ++ joinWith (l.map fun x => (x.1, x.2.2.2))))) = false := by
      cases pre with
      | nil => simp [hadj rfl]
      | cons c pre =>
        have : ¬ (c :: pre ++ (sp ++ sep ++ joinWith (l.map fun x => (x.1, x.2.2.2))) =
            sp ++ (sep ++ joinWith (l.map fun x => (x.1, x.2.2.2)))) := by
          intro he
          have := congrArg List.length he
          simp at this
          omega
        simp only [this, decide_false, Bool.and_false]
    refine .cons adj _ sp (sep ++ joinWith (l.map fun x => (x.1, x.2.2.2))) code p _ ?_ ?_ ?_
    · simpa using SkipTo_white pre _ hp
    · rw [hadj']; exact hx.1.lexeme _ hrest
    · cases l with
      | nil =>
        exact .nil _ _ (by simpa [joinWith] using SkipTo_white sep [] hx.2)
      | cons y l =>
        refine ih sep _ (fun z hz => h1 z (by simp [hz])) (fun z hz => h2 z (by simp [hz])) hx.2 ?_
        intro hs
        exact absurd hs (h2 (sp, code, p, sep) (by simp))

/-- Every token but the last is followed by a space. -/
def spaced : List (Str × Int × Payload) → List (Str × Int × Payload × Str)
  | [] => []
  | [x] => [(x.1, x.2.1, x.2.2, [])]
  | x :: y :: l => (x.1, x.2.1, x.2.2, [' ']) :: spaced (y :: l)

theorem spaced_map : ∀ l, (spaced l).map (fun x => (x.2.1, x.2.2.1)) = l.map (·.2)
  | [] => rfl
  | [_] => rfl
  | x :: y :: l => by simp [spaced, spaced_map (y :: l)]

theorem spaced_join : ∀ l, joinWith ((spaced l).map fun x => (x.1, x.2.2.2)) = [' '].intercalate (l.map (·.1))
  | [] => rfl
  | [x] => by simp [spaced, joinWith, List.intercalate]
  | x :: y :: l => by
    have := spaced_join (y :: l)
    simp only [spaced, List.map_cons, joinWith] at this ⊢
    simp only [List.intercalate, List.intersperse, List.flatten] at this ⊢
    simp [this]

theorem spaced_mem : ∀ l x, x ∈ spaced l → (x.1, x.2.1, x.2.2.1) ∈ l ∧ (x.2.2.2 = [] ∨ x.2.2.2 = [' '])
  | [], _, h => by simp [spaced] at h
  | [y], x, h => by simp [spaced] at h; subst h; simp
  | y :: z :: l, x, h => by
    simp only [spaced, List.mem_cons] at h
    rcases h with rfl | h
    · simp
    · have := spaced_mem (z :: l) x (by simpa [spaced] using h)
      exact ⟨List.mem_cons_of_mem _ this.1, this.2⟩

theorem spaced_ne_nil : ∀ l, l ≠ [] → spaced l ≠ []
  | [], h => absurd rfl h
  | [_], _ => by simp [spaced]
  | _ :: _ :: _, _ => by simp [spaced]

theorem spaced_dropLast : ∀ l, ∀ x ∈ (spaced l).dropLast, x.2.2.2 ≠ []
  | [], _, h => by simp [spaced] at h
  | [_], _, h => by simp [spaced] at h
  | y :: z :: l, x, h => by
    simp only [spaced] at h
    rw [List.dropLast_cons_of_ne_nil (spaced_ne_nil (z :: l) (by simp))] at h
    rcases List.mem_cons.1 h with rfl | h
    · simp
    · exact spaced_dropLast (z :: l) x h

/-- C20: tokens printed with single spaces between them lex back to themselves. -/
theorem C20_printed (u : Unicode) (l : List (Str × Int × Payload)) (h : ∀ x ∈ l, Printable u x.1 x.2.1 x.2.2) :
    Tokens u false ([' '].intercalate (l.map (·.1))) (l.map (·.2)) := by
  have := tokens_of_printed (u := u) (spaced l) [] false ?_ (spaced_dropLast l) (by simp) (by simp)
  · rw [spaced_map, spaced_join] at this
    exact this
  · intro x hx
    obtain ⟨h1, h2⟩ := spaced_mem l x hx
    refine ⟨h _ h1, ?_⟩
    rcases h2 with h2 | h2 <;> rw [h2] <;> decide

/-- Example for C20 -/
example : Tokens asciiUnicode false (c! "A ::= INTEGER ..")
    [(Tok.TYPEORMODULEREFERENCE, .name ['A']), (Tok.ASSIGNMENT, .none), (Tok.INTEGER, .none),
     (Tok.RANGE_SEPARATOR, .none)] := by
  refine C20_printed asciiUnicode [(['A'], Tok.TYPEORMODULEREFERENCE, .name ['A']), (c! "::=", Tok.ASSIGNMENT, .none),
    (c! "INTEGER", Tok.INTEGER, .none), (c! "..", Tok.RANGE_SEPARATOR, .none)] ?_
  simp only [List.forall_mem_cons]
  refine ⟨.typeReference _ _ ⟨⟨'A', [], rfl, by decide⟩, by simp [WordChar, asciiUnicode], by decide, by decide⟩ (by decide) ?_,
    .symbol _ _ (by decide), .keyword _ _ (by decide), .symbol _ _ (by decide), by simp⟩
  have : ∀ x ∈ reservedWords, x.1 ≠ ['A'] := by decide
  exact fun c hc => this _ hc rfl

end Asn1go.Props
