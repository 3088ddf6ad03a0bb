import Verif.Proofs.Lex4

/-! What a call of `Lex` does, and token sequences. -/

namespace Asn1go

open Spec

theorem Spec.Lexeme.ne_nil {u : Unicode} {adj : Bool} {sp rest : Str} {code : Int} {p : Payload}
    (h : Lexeme u adj sp rest code p) : sp ≠ [] := by
  obtain ⟨r, sp', rfl, _⟩ := lexLexeme_complete h
  simp

theorem Spec.Lexeme.noSkip {u : Unicode} {adj : Bool} {sp rest : Str} {code : Int} {p : Payload}
    (h : Lexeme u adj sp rest code p) : NoSkip (sp ++ rest) := by
  obtain ⟨r, sp', rfl, _, h, _⟩ := lexLexeme_complete h
  exact h

theorem Spec.Lexeme.code_range {u : Unicode} {adj : Bool} {sp rest : Str} {code : Int} {p : Payload}
    (h : Lexeme u adj sp rest code p) : 57346 ≤ code ∧ code ≤ 57470 := by
  cases h with
  | exponent => decide
  | keyword _ _ _ _ _ _ h => exact reservedWords_pos _ h
  | typeReference => decide
  | identifier => decide
  | number => decide
  | symbol _ _ _ h => exact symbols_pos _ h

/-- The possible outcomes of a call of `Lex`. -/
inductive LexCase (u : Unicode) (st : LexState) (lval : LVal) : Int → LVal → LexState → Prop
  | eof : SkipTo st.rest [] → st.fin = .eof →
      LexCase u st lval 0 lval ((st.at []).after [] 0)
  | token (sp rest : Str) (code : Int) (p : Payload) : SkipTo st.rest (sp ++ rest) →
      Lexeme u (adjAfter st.lastWasNumber st.rest (sp ++ rest)) sp rest code p →
      LexCase u st lval code (p.apply lval) ((st.at rest).after rest code)
  | readFail : SkipTo st.rest [] → st.fin = .fail →
      LexCase u st lval (-1) lval (((st.at []).after [] 0).error .readFailed)
  | bad (c : Char) (t : Str) (lval' : LVal) (st' : LexState) : SkipTo st.rest (c :: t) → NoSkip (c :: t) →
      LexPost (st.at t) st' (-1) → LexCase u st lval (-1) lval' st'

theorem lex_cases {u : Unicode} {st st' : LexState} {lval lval' : LVal} {code : Int}
    (h : lex u st lval = some (code, lval', st')) : LexCase u st lval code lval' st' := by
  unfold lex at h
  obtain ⟨mid, hs, hn, hf⟩ := lexGo_reach _ h
  simp only at hs hf
  cases mid with
  | nil =>
    simp only [lexFinish, LexState.at] at hf
    cases hfin : st.fin with
    | eof =>
      simp only [hfin, Option.some.injEq, Prod.mk.injEq] at hf
      obtain ⟨rfl, rfl, rfl⟩ := hf
      have := LexCase.eof (u := u) (lval := lval) hs hfin
      rw [← hfin]; exact this
    | fail =>
      simp only [hfin, Option.some.injEq, Prod.mk.injEq] at hf
      obtain ⟨rfl, rfl, rfl⟩ := hf
      have := LexCase.readFail (u := u) (lval := lval) hs hfin
      rw [← hfin]; exact this
  | cons c t =>
    have hnl : isNewline c = false := by
      have := NoSkip.head hn
      cases hc : isNewline c
      · rfl
      · simp [isNewline_white hc] at this
    simp only [lexFinish] at hf
    have hr : ((LexState.at { st with lastWasNumber := false } (c :: t))).rest = c :: t := rfl
    simp only [readRune_cons hr, LexState.at_at] at hf
    simp only [LexState.at] at hf
    by_cases hc : code = -1
    · subst hc
      have hp := lexLexeme_post (st := LexState.at { st with lastWasNumber := false } t) hn rfl hf
      refine .bad c t _ _ hs hn ⟨⟨hp.adv.suffix, hp.adv.lines, hp.adv.fin⟩, ?_⟩
      rcases hp.err with h | ⟨h, _⟩
      · exact Or.inl h
      · omega
    · obtain ⟨sp, p, h1, h2, h3, rfl, h5⟩ :=
        lexLexeme_sound (st := LexState.at { st with lastWasNumber := false } t) hn rfl hf hc
      simp only [LexState.at] at h1
      rw [h1] at hs h3
      have hl : lineEnds st'.rest = lineEnds t := by
        have := (lexLexeme_post (st := LexState.at { st with lastWasNumber := false } t) hn rfl hf).adv.lines
        rw [h5.lineNo] at this
        simp only [LexState.at] at this
        omega
      have := LexCase.token (lval := lval) sp st'.rest code p hs h3
      have he : st' = (st.at st'.rest).after st'.rest code := by
        obtain ⟨k1, k2, k3, k4⟩ := h5
        cases st'
        simp only [LexState.at, LexState.after, LexState.mk.injEq, true_and] at *
        exact ⟨k2, k1, k4, by rw [k3, hl]⟩
      rw [he]
      exact this

/-- A call of `Lex` on text that starts, after skipped text, with a lexeme reports that lexeme. -/
theorem lex_complete {u : Unicode} {st : LexState} {sp rest : Str} {code : Int} {p : Payload} (lval : LVal)
    (hf : st.fin = .eof) (hs : SkipTo st.rest (sp ++ rest))
    (hl : Lexeme u (adjAfter st.lastWasNumber st.rest (sp ++ rest)) sp rest code p) :
    lex u st lval = some (code, p.apply lval, (st.at rest).after rest code) := by
  unfold lex
  obtain ⟨r, sp', rfl, hnl, hn, hc⟩ := lexLexeme_complete hl
  rw [lexGo_skip hs _ _ { st with lastWasNumber := false } lval rfl hf (by omega) hn]
  unfold lexFinish
  have hr : ((LexState.at { st with lastWasNumber := false } (r :: sp' ++ rest))).rest = r :: (sp' ++ rest) := rfl
  rw [show (LexState.at { st with lastWasNumber := false } (r :: sp' ++ rest)).rest = r :: (sp' ++ rest) from rfl]
  simp only
  rw [readRune_cons hr, LexState.at_at]
  have hk := hc (LexState.at { st with lastWasNumber := false } (sp' ++ rest)) lval hf rfl rfl
  rw [hk]
  simp only [Option.some.injEq, Prod.mk.injEq, true_and]
  have h2 := (lexLexeme_post (st := LexState.at { st with lastWasNumber := false } (sp' ++ rest)) hn rfl hk).adv.lines
  simp only [LexState.at, LexState.after] at h2
  simp only [LexState.at, LexState.after, LexState.mk.injEq, true_and]
  omega

theorem lex_complete_eof {u : Unicode} {st : LexState} (lval : LVal) (hf : st.fin = .eof)
    (hs : SkipTo st.rest []) : lex u st lval = some (0, lval, (st.at []).after [] 0) := by
  unfold lex
  rw [lexGo_skip hs _ _ { st with lastWasNumber := false } lval rfl hf (by omega) ⟨by simp, by simp, by simp⟩]
  simp only [lexFinish, LexState.at, hf]
  rfl

theorem adjAfter_eq {adj : Bool} {t mid : Str} (h : SkipTo t mid) : adjAfter adj t mid = (adj && decide (t = mid)) := by
  unfold adjAfter
  congr 1
  rw [Bool.eq_iff_iff]
  simp only [beq_iff_eq, decide_eq_true_eq]
  constructor
  · intro hl; exact (h.suffix.eq_of_length hl.symm).symm
  · rintro rfl; rfl

/-- The lexer will deliver exactly the tokens `toks` and then the end of input. -/
structure Delivers (u : Unicode) (st : LexState) (toks : List (Int × Payload)) : Prop where
  fin : st.fin = .eof
  tokens : Tokens u st.lastWasNumber st.rest toks

theorem Delivers.lex_nil {u : Unicode} {st : LexState} (h : Delivers u st []) (lval : LVal) :
    ∃ st', lex u st lval = some (0, lval, st') ∧ Delivers u st' [] ∧ st'.err = st.err := by
  obtain ⟨hf, ht⟩ := h
  generalize hl : ([] : List (Int × Payload)) = l at ht
  cases ht with
  | nil _ _ hs =>
    exact ⟨_, lex_complete_eof lval hf hs, ⟨hf, .nil _ _ (.done _)⟩, rfl⟩
  | cons => cases hl

theorem Delivers.lex_cons {u : Unicode} {st : LexState} {code : Int} {p : Payload} {toks : List (Int × Payload)}
    (h : Delivers u st ((code, p) :: toks)) (lval : LVal) :
    57346 ≤ code ∧ code ≤ 57470 ∧
    ∃ st', lex u st lval = some (code, p.apply lval, st') ∧ Delivers u st' toks ∧ st'.err = st.err := by
  obtain ⟨hf, ht⟩ := h
  generalize hl : (code, p) :: toks = l at ht
  cases ht with
  | nil => cases hl
  | cons _ _ sp rest code' p' toks' hs hx ht =>
    cases hl
    rw [← adjAfter_eq hs] at hx
    refine ⟨hx.code_range.1, hx.code_range.2, _, lex_complete lval hf hs hx, ⟨hf, ?_⟩, rfl⟩
    exact ht

/-- A call of `Lex` that reports no error delivered a token or the end of input. -/
theorem lex_delivers {u : Unicode} {st st' : LexState} {lval lval' : LVal} {code : Int}
    (h : lex u st lval = some (code, lval', st')) (he : st'.err = none) :
    st.err = none ∧
    ((code = 0 ∧ lval' = lval ∧ st.fin = .eof ∧ Tokens u st.lastWasNumber st.rest []) ∨
     (57346 ≤ code ∧ code ≤ 57470 ∧ ∃ p, lval' = p.apply lval ∧ (∃ adj sp rest, Lexeme u adj sp rest code p) ∧
       ∀ toks, Tokens u st'.lastWasNumber st'.rest toks →
         Tokens u st.lastWasNumber st.rest ((code, p) :: toks))) := by
  cases lex_cases h with
  | eof hs hf => exact ⟨he, Or.inl ⟨rfl, rfl, hf, .nil _ _ hs⟩⟩
  | token sp rest code p hs hx =>
    refine ⟨he, Or.inr ⟨hx.code_range.1, hx.code_range.2, p, rfl, ⟨_, _, _, hx⟩, ?_⟩⟩
    intro toks ht
    rw [adjAfter_eq hs] at hx
    exact .cons _ _ _ _ _ _ _ hs hx ht
  | readFail hs hf => simp [LexState.error] at he
  | bad c t _ _ hs hn hp =>
    rcases hp.err with ⟨_, m, hm⟩ | ⟨h, _⟩
    · rw [hm] at he; cases he
    · omega

/-- What every call of `Lex` that returns guarantees. -/
theorem lex_post {u : Unicode} {st st' : LexState} {lval lval' : LVal} {code : Int}
    (h : lex u st lval = some (code, lval', st')) : LexPost st st' code := by
  have at_adv : ∀ {t mid : Str} (hs : st.rest = t) (h : mid <:+ t), Advance st (st.at mid) := by
    rintro _ mid rfl h
    exact ⟨h, by simp only [LexState.at]; omega, rfl⟩
  cases lex_cases h with
  | eof hs hf =>
    refine ⟨?_, Or.inr ⟨Or.inr rfl, rfl⟩⟩
    have := at_adv rfl hs.suffix
    exact ⟨this.suffix, this.lines, this.fin⟩
  | token sp rest code p hs hx =>
    refine ⟨?_, Or.inr ⟨Or.inl hx.code_range, rfl⟩⟩
    have := at_adv rfl ((List.suffix_append sp rest).trans hs.suffix)
    exact ⟨this.suffix, this.lines, this.fin⟩
  | readFail hs hf =>
    refine ⟨?_, Or.inl ⟨rfl, _, rfl⟩⟩
    have := at_adv rfl hs.suffix
    exact ⟨this.suffix, this.lines, this.fin⟩
  | bad c t _ _ hs hn hp =>
    have := at_adv rfl ((List.suffix_cons c t).trans hs.suffix)
    exact ⟨this.trans hp.adv, Or.inl (hp.err.resolve_right (by omega))⟩

/-- A call of `Lex` that does not report the end of input or a read failure consumes something. -/
theorem lex_consumes {u : Unicode} {st st' : LexState} {lval lval' : LVal} {code : Int}
    (h : lex u st lval = some (code, lval', st')) :
    st'.rest.length < st.rest.length ∨ (st'.rest = [] ∧ code ≤ 0) := by
  cases lex_cases h with
  | eof hs hf => exact Or.inr ⟨rfl, by omega⟩
  | token sp rest code p hs hx =>
    left
    have h1 := hs.suffix.length_le
    have h2 := List.length_pos_iff.2 hx.ne_nil
    simp [LexState.after] at *
    omega
  | readFail hs hf => exact Or.inr ⟨rfl, by omega⟩
  | bad c t _ _ hs hn hp =>
    left
    have h1 := hs.suffix.length_le
    have h2 := hp.adv.suffix.length_le
    simp [LexState.at] at *
    omega

end Asn1go
