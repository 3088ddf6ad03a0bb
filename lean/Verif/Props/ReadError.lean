import Verif.Props.Message

/-! When `ParseStream` does not return on a failing reader (/repo/lexer.go:270-343): C25. -/

namespace Asn1go.Props

open Spec LR

/-- The text starts with tokens that can be gone on from to a text that parses, and goes on with a comment that is not closed, or with `:` or `.` and
less than two characters. -/
def StuckText (u : Unicode) (text : Str) : Prop :=
  ∃ k r done adj, text = k ++ r ∧ Reads u false text done adj r ∧ Viable u k done ∧ Stuck r

/-- One call of `Lex` on a failing reader: it does not return exactly when the text is stuck, whatever came before. -/
theorem C25_lex (u : Unicode) (st : LexState) (lval : LVal) (hf : st.fin = .fail) : lex u st lval = none ↔ Stuck st.rest := lex_stuck hf

/-- `ParseStream` does not return on a failing reader only if the text is stuck, or has text that is no token before. -/
theorem C25_hang {u : Unicode} {text : Str} (h : parseStream u text .fail = .hang) : StuckText u text ∨ BadToken u text := by
  rcases hang_read h with ⟨done, adj, r, h1, h2, h3, σ0, h4, h5⟩ | hb
  · obtain ⟨k, hk, _⟩ := h1.replace
    exact .inl ⟨k, r, done, adj, hk, h1, viable_of_path h1 h4 h5 h2 hk, h3⟩
  · exact .inr (badToken_of_bad hb)

theorem reads_eq {u : Unicode} {text : Str} {done : List Token} {a a' : Bool} {r r' : Str} (h : Reads u false text done a r)
    (h' : Reads u false text done a' r') : r = r' := by
  rcases h.compare h' with ⟨x, hx, hy⟩ | ⟨x, hx, hy⟩ <;>
  · have : x = [] := by simpa using hx
    subst this
    cases hy; rfl

/-- On a text that is stuck it does not return. -/
theorem C25_stuck {u : Unicode} {text : Str} (h : StuckText u text) : parseStream u text .fail = .hang := by
  obtain ⟨k, r, done, adj, _, hrd, ⟨more, tail, m, hm, htok⟩, hst⟩ := h
  rcases C25_read_errors_partial u text with hh | ⟨line, e, he⟩
  · exact hh
  exfalso
  -- where the parser stopped, no token can come before the stuck text
  have place : ∀ {done' adj' r'}, Reads u false text done' adj' r' → Free u text done' → ¬ Stuck r' →
      ∃ x, x ≠ [] ∧ done = done' ++ x ∧ Reads u adj' r' x adj r := by
    intro done' adj' r' h1 h2 h3
    rcases h1.compare hrd with ⟨x, rfl, hx⟩ | ⟨x, rfl, hx⟩
    · refine ⟨x, ?_, rfl, hx⟩
      rintro rfl
      cases hx
      exact h3 hst
    · exfalso
      by_cases hx0 : x = []
      · subst hx0
        cases hx
        exact h3 hst
      · exact h2 done adj r x hrd rfl hx0 hst
  rcases stream_error_read he with ⟨done', adj', r', h1, h2, _, h4, _⟩ | ⟨_, done', adj', r', h1, h2, h3, h4⟩ |
      ⟨sn, tok, done', adj', r', σ0, σ, n, _, h1, hd, hst', ht1, ht2, hr, hp, hn, hh, hact, hnext, hfree⟩
  · obtain ⟨x, hx, rfl, hy⟩ := place h1 (h4 rfl).1 (h4 rfl).2
    cases hy with
    | nil => exact hx rfl
    | cons _ _ sp rest code p _ _ _ hs hl => exact h2.2 ⟨sp, rest, code, p, hs, hl⟩
  · obtain ⟨x, hx, rfl, hy⟩ := place h1 h3 h4
    cases hy with
    | nil => exact hx rfl
    | cons _ _ sp rest code p _ _ _ hs hl => exact next_end hs hl h2
  · obtain ⟨x, hx, rfl, hy⟩ := place h1 (hfree rfl).1 (hfree rfl).2
    cases hy with
    | nil => exact hx rfl
    | cons _ _ sp rest code p toks _ _ hs hl =>
      rcases hnext with ⟨_, h⟩ | ⟨sp', rest', p', hs', hl'⟩
      · exact next_end hs hl h
      · obtain ⟨rfl, rfl, _⟩ := next_det hs hl hs' hl'
        simp only [List.append_assoc, List.cons_append] at htok
        obtain ⟨t, hacc, _⟩ := accepts_of_parse htok hm
        have hR := (okToks_append.1 (okToks_of_tokens htok)).2
        have h4 : 4 ≤ tok := by have := (hR _ List.mem_cons_self).1; simp only at this; omega
        exact refused hr hn hh hact hR (tokNo_code h4) t hacc

/-- Where there is no text that is no token, this is exact.  Missing for texts with such text: the parser takes it for the end of the text, and may go on
after it (see the examples). -/
theorem C25_exact_partial {u : Unicode} {text : Str} (h : ¬ BadToken u text) :
    (parseStream u text .fail = .hang ↔ StuckText u text) ∧
    ((∃ line msg, parseStream u text .fail = .err line msg) ↔ ¬ StuckText u text) := by
  have h1 : parseStream u text .fail = .hang ↔ StuckText u text := ⟨fun hh => (C25_hang hh).resolve_right h, C25_stuck⟩
  refine ⟨h1, ?_, ?_⟩
  · rintro ⟨line, msg, he⟩ hs
    rw [C25_stuck hs] at he
    cases he
  · intro hs
    exact (C25_read_errors_partial u text).resolve_left fun hh => hs (h1.1 hh)

theorem refM : Word asciiUnicode ['M'] := ⟨⟨'M', [], rfl, by decide⟩, by simp [WordChar, asciiUnicode], by decide, by decide⟩

/-- The hypothesis of `C25_stuck` is met: tokens that can be gone on from, then a comment without an end. -/
theorem stuck_sample : StuckText asciiUnicode (c! "M /* comment") := by
  have hM : ∀ code, (['M'], code) ∉ reservedWords := by
    have : ∀ x ∈ reservedWords, x.1 ≠ ['M'] := by decide
    exact fun c hc => this _ hc rfl
  refine ⟨['M'], c! " /* comment", [(Tok.TYPEORMODULEREFERENCE, .name ['M'])], false, rfl, ?_, ?_, ?_⟩
  · refine .cons _ _ ['M'] (c! " /* comment") _ _ _ _ _ (.done _) (.typeReference _ _ _ (by decide) refM (by decide) ⟨by simp [WordChar, asciiUnicode], ?_⟩ hM) (.nil _ _)
    simp [WordChar, asciiUnicode]
  · have h : ∃ m, parseString asciiUnicode (c! "M DEFINITIONS ::= BEGIN END") = .ok m := ⟨_, rfl⟩
    obtain ⟨m, h⟩ := h
    refine ⟨c! " DEFINITIONS ::= BEGIN END", [(Tok.DEFINITIONS, .none), (Tok.ASSIGNMENT, .none), (Tok.BEGIN, .none), (Tok.END, .none)], m, h, ?_⟩
    refine C20_printed asciiUnicode [(['M'], Tok.TYPEORMODULEREFERENCE, .name ['M']), (c! "DEFINITIONS", Tok.DEFINITIONS, .none),
      (c! "::=", Tok.ASSIGNMENT, .none), (c! "BEGIN", Tok.BEGIN, .none), (c! "END", Tok.END, .none)] ?_
    simp only [List.forall_mem_cons]
    exact ⟨.typeReference _ _ refM (by decide) hM, .keyword _ _ (by decide), .symbol _ _ (by decide), .keyword _ _ (by decide),
      .keyword _ _ (by decide), by simp⟩
  · refine ⟨c! "/* comment", .white _ _ _ (by decide) (.done _), .block _ (by decide) ?_⟩
    rintro ⟨r, h⟩
    have := skipBlock_fail 20 false false (c! " comment") 0 rfl (by decide) r h
    obtain ⟨n, hn⟩ := this
    have h' : skipBlockCommentGo .fail 20 false false (c! " comment") 0 = none := by decide
    rw [h'] at hn
    cases hn

example : parseStream asciiUnicode (c! "M /* comment") .fail = .hang := C25_stuck stuck_sample

/-- Other texts at which the parser does not return: in a line comment, and after a colon. -/
example : parseStream asciiUnicode (c! "M DEFINITIONS -- comment") .fail = .hang := by rfl
example : parseStream asciiUnicode (c! "M DEFINITIONS :") .fail = .hang := by rfl

/-- The error is reported where the text ends between tokens or inside a name. -/
example : error? (parseStream asciiUnicode (c! "M DEFINITIONS ") .fail) = some (1, .syntaxError 20 1) := by decide +kernel
example : error? (parseStream asciiUnicode (c! "M DEFIN") .fail) = some (1, .syntaxError 2 6) := by decide +kernel

/-- After text that is no token there are both: the parser stops there, or goes on and does not return. -/
theorem C25_after : error? (parseStream asciiUnicode (c! "M DEFINITIONS ::= ? /* comment") .fail) = some (1, .syntaxError 28 1) ∧
    parseStream asciiUnicode (c! "M ? /* comment") .fail = .hang := ⟨by decide +kernel, rfl⟩

end Asn1go.Props
