import Verif.Proofs.Lex3

/-! A whole call of `Lex`. -/

namespace Asn1go

open Spec

/-! ### Lines and suffixes -/

/-- Invariants of a scanner step: text is only consumed from the front and lines are counted. -/
structure Advance (st st' : LexState) : Prop where
  suffix : st'.rest <:+ st.rest
  lines : st'.lineNo + (lineEnds st'.rest : Int) = st.lineNo + lineEnds st.rest
  fin : st'.fin = st.fin

theorem Advance.refl (st : LexState) : Advance st st := ⟨List.suffix_refl _, rfl, rfl⟩

theorem Advance.trans {a b c : LexState} (h : Advance a b) (h' : Advance b c) : Advance a c :=
  ⟨h'.suffix.trans h.suffix, h'.lines.trans h.lines, h'.fin.trans h.fin⟩

theorem readRune_advance {st st' : LexState} {res : ReadRes} (h : readRune st = (res, st')) :
    Advance st st' := by
  unfold readRune at h
  split at h
  · simp only [Prod.mk.injEq] at h; obtain ⟨_, rfl⟩ := h; exact Advance.refl _
  · rename_i c cs hr
    simp only [Prod.mk.injEq] at h; obtain ⟨_, rfl⟩ := h
    refine ⟨by rw [hr]; exact List.suffix_cons _ _, ?_, rfl⟩
    rw [hr, lineEnds_cons]
    simp only
    split <;> simp <;> omega

theorem skipLineComment_advance {st st' : LexState} (h : skipLineComment st = some st') :
    Advance st st' := by
  unfold skipLineComment at h
  simp only [Option.map_eq_some_iff] at h
  obtain ⟨⟨r, ln⟩, h1, rfl⟩ := h
  refine ⟨?_, (skipLine_lines _ _ _ _ _ _ h1).1, rfl⟩
  exact ((skipLine_spec _ _ _ _ _).1 h1).suffix

theorem skipBlockComment_advance {st st' : LexState} (h : skipBlockComment st = some st') :
    Advance st st' := by
  unfold skipBlockComment at h
  simp only [Option.map_eq_some_iff] at h
  obtain ⟨⟨r, ln⟩, h1, rfl⟩ := h
  refine ⟨?_, (skipBlock_lines _ _ _ _ _ _ _ _ h1).1, rfl⟩
  rcases skipBlock_spec _ _ _ _ _ _ _ _ rfl h1 with h | ⟨rfl, _⟩
  · exact h.suffix
  · exact List.nil_suffix

theorem lineEnds_drop_of_not {s : Str} : ∀ n, (∀ c ∈ s.take n, isNewline c = false) →
    lineEnds (s.drop n) = lineEnds s := by
  intro n h
  conv => rhs; rw [← List.take_append_drop n s]
  rw [lineEnds_append]
  have : ∀ w : Str, (∀ c ∈ w, isNewline c = false) → lineEnds w = 0 := by
    intro w hw
    induction w with
    | nil => rfl
    | cons c w ih =>
      rw [lineEnds_cons, ih (fun x hx => hw x (by simp [hx])), hw c (by simp)]; simp
  rw [this _ h]; omega

theorem discard_advance {st : LexState} {n : Nat} (h : ∀ c ∈ st.rest.take n, isNewline c = false) :
    Advance st (discard n st) :=
  ⟨List.drop_suffix _ _, by simp [discard, lineEnds_drop_of_not n h], rfl⟩

theorem error_advance {st st' : LexState} (m : ErrMsg) (h : Advance st st') : Advance st (st'.error m) :=
  ⟨h.suffix, h.lines, h.fin⟩

theorem consumeSingleSymbol_state (r : Char) (st : LexState) :
    ∃ code, consumeSingleSymbol r st = (code, st) ∧ 57346 ≤ code ∨
      consumeSingleSymbol r st = (-1, st.error (.unexpectedCharacter r)) := by
  by_cases hs : ∃ code, consumeSingleSymbol r st = (code, st) ∧ 57346 ≤ code
  · exact hs.imp fun _ h => Or.inl h
  · refine ⟨0, Or.inr ?_⟩
    cases hw : isWhitespace r
    · cases h : consumeSingleSymbol r st with
      | mk code st' =>
        rcases consumeSingleSymbol_ok hw h with ⟨rfl, hm⟩ | ⟨rfl, rfl⟩
        · exact absurd ⟨code, h, (symbols_pos _ hm).1⟩ hs
        · rfl
    · have hc : r.toNat = 9 ∨ r.toNat = 10 ∨ r.toNat = 11 ∨ r.toNat = 12 ∨ r.toNat = 13 ∨ r.toNat = 32 := by
        simpa [isWhitespace, or_assoc] using hw
      have hne : ∀ c : Char, r.toNat ≠ c.toNat → (r == c) = false := by
        intro c h; apply beq_false_of_ne; rintro rfl; exact h rfl
      have key : r = ' ' ∨ (r.toNat ≠ 32 ∧ r.toNat ≤ 13) := by
        rcases hc with h | h | h | h | h | h
        all_goals first
          | (left; exact Char.toNat_inj.1 h)
          | (right; omega)
      rcases key with rfl | ⟨h1, h2⟩
      · exact absurd ⟨_, rfl, by decide⟩ hs
      · unfold consumeSingleSymbol
        simp only [hne _ (show r.toNat ≠ ('{').toNat by intro h; rw [h] at h2; exact absurd h2 (by decide)),
          hne _ (show r.toNat ≠ ('}').toNat by intro h; rw [h] at h2; exact absurd h2 (by decide)),
          hne _ (show r.toNat ≠ ('<').toNat by intro h; rw [h] at h2; exact absurd h2 (by decide)),
          hne _ (show r.toNat ≠ ('>').toNat by intro h; rw [h] at h2; exact absurd h2 (by decide)),
          hne _ (show r.toNat ≠ (',').toNat by intro h; rw [h] at h2; exact absurd h2 (by decide)),
          hne _ (show r.toNat ≠ ('.').toNat by intro h; rw [h] at h2; exact absurd h2 (by decide)),
          hne _ (show r.toNat ≠ ('(').toNat by intro h; rw [h] at h2; exact absurd h2 (by decide)),
          hne _ (show r.toNat ≠ (')').toNat by intro h; rw [h] at h2; exact absurd h2 (by decide)),
          hne _ (show r.toNat ≠ ('[').toNat by intro h; rw [h] at h2; exact absurd h2 (by decide)),
          hne _ (show r.toNat ≠ (']').toNat by intro h; rw [h] at h2; exact absurd h2 (by decide)),
          hne _ (show r.toNat ≠ ('-').toNat by intro h; rw [h] at h2; exact absurd h2 (by decide)),
          hne _ (show r.toNat ≠ (':').toNat by intro h; rw [h] at h2; exact absurd h2 (by decide)),
          hne _ (show r.toNat ≠ ('=').toNat by intro h; rw [h] at h2; exact absurd h2 (by decide)),
          hne _ (show r.toNat ≠ ('"').toNat by intro h; rw [h] at h2; exact absurd h2 (by decide)),
          hne _ (show r.toNat ≠ ('\'').toNat by intro h; rw [h] at h2; exact absurd h2 (by decide)),
          hne _ (show r.toNat ≠ (' ').toNat by intro h; rw [h] at h2; exact absurd h2 (by decide)),
          hne _ (show r.toNat ≠ (';').toNat by intro h; rw [h] at h2; exact absurd h2 (by decide)),
          hne _ (show r.toNat ≠ ('@').toNat by intro h; rw [h] at h2; exact absurd h2 (by decide)),
          hne _ (show r.toNat ≠ ('|').toNat by intro h; rw [h] at h2; exact absurd h2 (by decide)),
          hne _ (show r.toNat ≠ ('!').toNat by intro h; rw [h] at h2; exact absurd h2 (by decide)),
          hne _ (show r.toNat ≠ ('^').toNat by intro h; rw [h] at h2; exact absurd h2 (by decide)),
          Bool.false_eq_true, if_false]

/-- What holds after any returning call: lines are counted, and -1 is returned exactly when the error
field has been set, with the current line. -/
structure LexPost (st st' : LexState) (code : Int) : Prop where
  adv : Advance st st'
  err : (code = -1 ∧ ∃ m, st'.err = some (st'.lineNo + 1, m)) ∨
    ((57346 ≤ code ∧ code ≤ 57470 ∨ code = 0) ∧ st'.err = st.err)

theorem lexLexeme_post {u : Unicode} {adj : Bool} {r : Char} {st st' : LexState} {lval lval' : LVal}
    {code : Int} (hno : NoSkip (r :: st.rest)) (hflag : st.lastWasNumber = false)
    (h : lexLexeme u adj r st lval = some (code, lval', st')) : LexPost st st' code := by
  by_cases hcode : code = -1
  · subst hcode
    have hws : isWhitespace r = false := NoSkip.head hno
    have hnl : isNewline r = false := by
      cases hn : isNewline r
      · rfl
      · simp [isNewline_white hn] at hws
    suffices hs : Advance st st' ∧ ∃ m, st'.err = some (st'.lineNo + 1, m) from ⟨hs.1, Or.inl ⟨rfl, hs.2⟩⟩
    unfold lexLexeme at h
    split at h
    · split at h
      · simp only [Option.some.injEq, Prod.mk.injEq] at h
        exact absurd h.1 (by decide)
      · rw [unread_read hnl] at h
        simp only [consumeWord] at h
        cases hw : consumeWordGo u [r] r st.rest st.lineNo with
        | mk res q =>
          obtain ⟨rest, ln⟩ := q
          have hl := consumeWordGo_lines u _ _ _ _ _ _ _ hw
          rw [hw] at h
          cases res with
          | error m =>
            simp only [Option.some.injEq, Prod.mk.injEq] at h
            obtain ⟨_, _, rfl⟩ := h
            exact ⟨⟨hl.2.2, hl.1, rfl⟩, m, rfl⟩
          | ok content =>
            simp only at h
            split at h
            · split at h
              · rename_i hlook
                simp only [Option.some.injEq, Prod.mk.injEq] at h
                have := (reservedWords_pos _ (lookup_some_mem hlook)).1
                simp only at this
                omega
              · simp only [Option.some.injEq, Prod.mk.injEq] at h
                exact absurd h.1 (by decide)
            · simp only [Option.some.injEq, Prod.mk.injEq] at h
              exact absurd h.1 (by decide)
    · split at h
      · rw [unread_read hnl] at h
        simp only [consumeNumber, Option.some.injEq] at h
        cases hw : consumeNumberGo u [r] st.rest st.lineNo with
        | mk repr q =>
          obtain ⟨rest, ln⟩ := q
          rw [hw] at h
          obtain ⟨w, h1, h2, h3, h6⟩ := consumeNumberGo_spec u _ _ _ _ _ _ hw
          subst h6
          simp only at h
          split at h
          · simp only [Prod.mk.injEq] at h
            obtain ⟨_, _, rfl⟩ := h
            refine ⟨⟨⟨w, h2.symm⟩, ?_, rfl⟩, _, rfl⟩
            simp only [LexState.error]
            have := lineEnds_drop_of_not (s := st.rest) w.length (by
              rw [h2, List.take_left]
              intro c hc; exact digit_not_newline u (h3.1 c hc))
            rw [h2, List.drop_left, ← h2] at this
            rw [this]
          · simp only [Prod.mk.injEq] at h
            exact absurd h.1 (by decide)
      · split at h
        · simp at h
        · simp only [Option.some.injEq, Prod.mk.injEq] at h
          exact absurd h.1 (by decide)
        · split at h
          · simp at h
          · simp only [Option.some.injEq, Prod.mk.injEq] at h
            exact absurd h.1 (by decide)
          · split at h
            · simp only [Option.some.injEq, Prod.mk.injEq] at h
              exact absurd h.1 (by decide)
            · split at h
              · simp only [Option.some.injEq, Prod.mk.injEq] at h
                exact absurd h.1 (by decide)
              · split at h
                · simp only [Option.some.injEq, Prod.mk.injEq] at h
                  exact absurd h.1 (by decide)
                · obtain ⟨c, ⟨hc, hp⟩ | hc⟩ := consumeSingleSymbol_state r st
                  · rw [hc] at h
                    simp only [Option.some.injEq, Prod.mk.injEq] at h
                    omega
                  · rw [hc] at h
                    simp only [Option.some.injEq, Prod.mk.injEq] at h
                    obtain ⟨_, _, rfl⟩ := h
                    exact ⟨error_advance _ (Advance.refl _), _, rfl⟩
  · obtain ⟨sp, p, h1, h2, h3, h4, h5⟩ := lexLexeme_sound hno hflag h hcode
    have hpos : 57346 ≤ code ∧ code ≤ 57470 := by
      cases h3 with
      | exponent => decide
      | keyword _ _ _ _ _ _ hm => exact reservedWords_pos _ hm
      | typeReference => decide
      | identifier => decide
      | number => decide
      | symbol _ _ _ hm => exact symbols_pos _ hm
    cases sp with
    | nil => exact absurd rfl h2
    | cons x sp =>
      simp only [List.cons_append, List.cons.injEq] at h1
      refine ⟨⟨⟨sp, h1.2.symm⟩, ?_, h5.fin⟩, Or.inr ⟨Or.inl hpos, h5.err⟩⟩
      have hnn : ∀ c ∈ sp, isNewline c = false := by
        intro c hc
        cases h3 with
        | exponent => simp at hc
        | keyword _ _ _ _ hw =>
          exact not_newline_of_wordChar u ((isIdentifierChar_iff u c).2 (hw.chars c (by simp [hc])))
        | typeReference _ _ _ _ hw =>
          exact not_newline_of_wordChar u ((isIdentifierChar_iff u c).2 (hw.chars c (by simp [hc])))
        | identifier _ _ _ _ hw =>
          exact not_newline_of_wordChar u ((isIdentifierChar_iff u c).2 (hw.chars c (by simp [hc])))
        | number _ _ _ hd =>
          have := hd c (by simp [hc])
          simp [isNewline]; omega
        | symbol _ _ _ hm =>
          have : ∀ p ∈ symbols, ∀ c ∈ p.1, isNewline c = false := by decide
          exact this _ hm c (by simp [hc])
      have := lineEnds_drop_of_not (s := st.rest) sp.length (by
        rw [h1.2, List.take_left]; exact hnn)
      rw [h1.2, List.drop_left, ← h1.2] at this
      rw [this, h5.lineNo]

/-! ### Skipping -/

/-- The state after skipping up to `mid`. -/
def LexState.at (st : LexState) (mid : Str) : LexState :=
  { st with rest := mid, lineNo := st.lineNo + lineEnds st.rest - lineEnds mid }

theorem LexState.at_self (st : LexState) : st.at st.rest = st := by
  cases st; simp only [LexState.at, LexState.mk.injEq, true_and]; omega

theorem LexState.at_at (st : LexState) (a b : Str) : (st.at a).at b = st.at b := by
  simp [LexState.at]

theorem readRune_cons {st : LexState} {c : Char} {t : Str} (h : st.rest = c :: t) :
    readRune st = (.rune c, st.at t) := by
  simp only [readRune, h, LexState.at, lineEnds_cons, Prod.mk.injEq, true_and]
  congr 1
  split <;> simp <;> omega

theorem eq_at_of_advance {st st' : LexState} (h : Advance st st') (he : st'.err = st.err)
    (hf : st'.lastWasNumber = st.lastWasNumber) : st' = st.at st'.rest := by
  obtain ⟨_, h2, h3⟩ := h
  cases st; cases st'
  simp only [LexState.at, LexState.mk.injEq, true_and] at *
  refine ⟨h3, he, hf, ?_⟩
  omega

theorem skipLineComment_at {st st' : LexState} (h : skipLineComment st = some st') :
    st' = st.at st'.rest := by
  have h0 := skipLineComment_advance h
  unfold skipLineComment at h
  simp only [Option.map_eq_some_iff] at h
  obtain ⟨⟨r, ln⟩, h1, rfl⟩ := h
  exact eq_at_of_advance h0 rfl rfl

theorem skipBlockComment_at {st st' : LexState} (h : skipBlockComment st = some st') :
    st' = st.at st'.rest := by
  have h0 := skipBlockComment_advance h
  unfold skipBlockComment at h
  simp only [Option.map_eq_some_iff] at h
  obtain ⟨⟨r, ln⟩, h1, rfl⟩ := h
  exact eq_at_of_advance h0 rfl rfl

theorem skipLineComment_spec {st st' : LexState} {t : Str} (hr : st.rest = '-' :: t)
    (h : skipLineComment st = some st') :
    (∃ t', t = '-' :: t' ∧ st'.rest = t') ∨ (t.head? ≠ some '-' ∧ LineTo t st'.rest) := by
  unfold skipLineComment at h
  simp only [Option.map_eq_some_iff] at h
  obtain ⟨⟨r, ln⟩, h1, rfl⟩ := h
  rw [hr] at h1
  simp only [skipLineCommentGo, show isNewline '-' = false by decide, Bool.false_eq_true, if_false,
    beq_self_eq_true, if_true] at h1
  exact (skipLine_spec _ _ _ _ _).2 h1

theorem skipBlockComment_spec {st st' : LexState} {t : Str} (hr : st.rest = '*' :: t)
    (h : skipBlockComment st = some st') :
    (∃ t', t = '/' :: t' ∧ st'.rest = t') ∨ (t.head? ≠ some '/' ∧ (BlockTo t st'.rest ∨
      (st'.rest = [] ∧ st.fin = .eof ∧ BlockOpen t))) := by
  unfold skipBlockComment at h
  simp only [Option.map_eq_some_iff] at h
  obtain ⟨⟨r, ln⟩, h1, rfl⟩ := h
  rw [hr] at h1
  have h2 := skipBlock_spec _ _ _ _ _ _ _ _ rfl h1
  simp only [flagPrefix, Bool.false_eq_true, if_false, List.nil_append] at h2
  by_cases ht : t.head? = some '/'
  · left
    cases t with
    | nil => simp at ht
    | cons x t =>
      simp at ht; subst ht
      refine ⟨t, rfl, ?_⟩
      rcases h2 with h2 | ⟨_, _, h2⟩
      · cases h2 with
        | close => rfl
        | char _ _ _ h3 => exact absurd ⟨rfl, rfl⟩ h3
      · exact absurd ⟨_, BlockTo.close t⟩ h2
  · right
    refine ⟨ht, ?_⟩
    rcases h2 with h2 | ⟨h3, h4, h2⟩
    · cases h2 with
      | close => simp at ht
      | char _ _ _ _ _ h3 => exact Or.inl h3
    · refine Or.inr ⟨h3, h4, ?_⟩
      rintro ⟨r', hr'⟩
      exact h2 ⟨r', .char _ _ _ (fun h => ht h.2) (by simp) hr'⟩

theorem Spec.SkipTo.suffix {t r : Str} (h : SkipTo t r) : r <:+ t := by
  induction h with
  | done t => exact List.suffix_refl _
  | white c t r _ _ ih => exact ih.trans (List.suffix_cons _ _)
  | line t m r _ h _ ih => exact (ih.trans h.suffix).trans ⟨['-', '-'], rfl⟩
  | line3 t r _ ih => exact ih.trans ⟨['-', '-', '-'], rfl⟩
  | block t m r _ h _ ih => exact (ih.trans h.suffix).trans ⟨['/', '*'], rfl⟩
  | blockSlash t r _ ih => exact ih.trans ⟨['/', '*', '/'], rfl⟩
  | blockOpen t => exact List.nil_suffix

/-- The last action of a call of `Lex`, once nothing more is skipped. -/
def lexFinish (u : Unicode) (adj : Bool) (st : LexState) (lval : LVal) : Option (Int × LVal × LexState) :=
  match st.rest with
  | [] => match st.fin with
    | .eof => some (0, lval, st)
    | .fail => some (-1, lval, st.error .readFailed)
  | r :: _ => lexLexeme u adj r (readRune st).2 lval

theorem head_peek {c : Char} {st : LexState} {t : Str} (h : st.rest = c :: t) (d : Char) :
    (peekRune st == some d) = (c == d) := by
  simp [peekRune, h]

theorem lexGo_finish {u : Unicode} {fuel : Nat} {adj : Bool} {st : LexState} {lval : LVal}
    (h : NoSkip st.rest) : lexGo u (fuel + 1) adj st lval = lexFinish u adj st lval := by
  cases hr : st.rest with
  | nil =>
    cases hf : st.fin <;> simp [lexGo, lexFinish, readRune, hr, hf]
  | cons c t =>
    rw [hr] at h
    have hws := NoSkip.head h
    simp only [lexGo, lexFinish, hr, readRune_cons hr, hws, Bool.false_eq_true, if_false]
    have h1 : (c == '-' && peekRune (st.at t) == some '-') = false := by
      cases hb : (c == '-' && peekRune (st.at t) == some '-')
      · rfl
      · simp only [Bool.and_eq_true, beq_iff_eq, peekRune, LexState.at] at hb
        cases t with
        | nil => simp at hb
        | cons d t =>
          simp at hb
          obtain ⟨rfl, rfl⟩ := hb
          exact absurd ⟨t, rfl⟩ h.2.1
    have h2 : (c == '/' && peekRune (st.at t) == some '*') = false := by
      cases hb : (c == '/' && peekRune (st.at t) == some '*')
      · rfl
      · simp only [Bool.and_eq_true, beq_iff_eq, peekRune, LexState.at] at hb
        cases t with
        | nil => simp at hb
        | cons d t =>
          simp at hb
          obtain ⟨rfl, rfl⟩ := hb
          exact absurd ⟨t, rfl⟩ h.2.2
    simp only [h1, h2, Bool.false_eq_true, if_false]

theorem noSkip_of_checks {c : Char} {t : Str} {st : LexState} (hr : st.rest = t)
    (hw : ¬ isWhitespace c = true) (h1 : ¬ (c == '-' && peekRune st == some '-') = true)
    (h2 : ¬ (c == '/' && peekRune st == some '*') = true) : NoSkip (c :: t) := by
  refine ⟨?_, ?_, ?_⟩
  · intro x hx; simp at hx; subst hx; intro h; exact hw ((isWhitespace_iff _).2 h)
  · rintro ⟨s, hs⟩
    simp at hs
    obtain ⟨rfl, rfl⟩ := hs
    simp [peekRune, hr] at h1
  · rintro ⟨s, hs⟩
    simp at hs
    obtain ⟨rfl, rfl⟩ := hs
    simp [peekRune, hr] at h2

/-- Whether a number token stands directly before the token that starts after skipping from `t` to
`mid`. -/
def adjAfter (adj : Bool) (t mid : Str) : Bool := adj && t.length == mid.length

theorem adjAfter_self (adj : Bool) (t : Str) : adjAfter adj t t = adj := by simp [adjAfter]
theorem adjAfter_false (t mid : Str) : adjAfter false t mid = false := by simp [adjAfter]
theorem adjAfter_lt (adj : Bool) {t mid : Str} (h : mid.length < t.length) : adjAfter adj t mid = false := by
  simp [adjAfter]; intro _; omega

/-- If the loop returns, then it has skipped white space and comments and finished. -/
theorem lexGo_reach {u : Unicode} (fuel : Nat) : ∀ {adj : Bool} {st : LexState} {lval : LVal} {res},
    lexGo u fuel adj st lval = some res →
    ∃ mid, SkipTo st.rest mid ∧ NoSkip mid ∧
      lexFinish u (adjAfter adj st.rest mid) (st.at mid) lval = some res := by
  induction fuel with
  | zero => intro adj st lval res h; simp [lexGo] at h
  | succ fuel ih =>
    intro adj st lval res h
    cases hr : st.rest with
    | nil =>
      have hno : NoSkip st.rest := by rw [hr]; exact ⟨by simp, by simp, by simp⟩
      rw [lexGo_finish hno] at h
      refine ⟨[], .done _, by rw [← hr]; exact hno, ?_⟩
      rw [adjAfter_self, ← hr, LexState.at_self]; exact h
    | cons c t =>
      have h0 := h
      simp only [lexGo, readRune_cons hr] at h
      have done : ∀ {mid m st'}, st' = (st.at t).at m → SkipTo m mid → NoSkip mid → SkipTo (c :: t) mid →
          m.length ≤ t.length →
          lexFinish u (adjAfter false m mid) (st'.at mid) lval = some res →
          ∃ mid, SkipTo (c :: t) mid ∧ NoSkip mid ∧
            lexFinish u (adjAfter adj (c :: t) mid) (st.at mid) lval = some res := by
        intro mid m st' e hs hn hs' hl hf
        refine ⟨mid, hs', hn, ?_⟩
        have := hs.suffix.length_le
        rw [adjAfter_lt adj (by simp; omega)]
        rw [adjAfter_false, e, LexState.at_at, LexState.at_at] at hf
        exact hf
      split at h
      · rename_i hw
        obtain ⟨mid, h1, h2, h3⟩ := ih h
        refine done (m := t) (st' := st.at t) (by rw [LexState.at_at]) h1 h2
          (.white _ _ _ ((isWhitespace_iff _).1 hw) h1) (Nat.le_refl _) h3
      · rename_i hw
        split at h
        · rename_i hc
          simp only [Bool.and_eq_true, beq_iff_eq, peekRune] at hc
          obtain ⟨rfl, hh⟩ := hc
          split at h
          · simp at h
          · rename_i st'' hs
            obtain ⟨mid, h1, h2, h3⟩ := ih h
            obtain ⟨t', rfl⟩ : ∃ t', t = '-' :: t' := by
              cases t with
              | nil => simp [LexState.at] at hh
              | cons d t' => simp [LexState.at] at hh; exact ⟨t', by rw [hh]⟩
            have hat := skipLineComment_at hs
            have hadv := (skipLineComment_advance hs).suffix.length_le
            have hsk : SkipTo ('-' :: '-' :: t') mid := by
              rcases skipLineComment_spec (t := t') rfl hs with ⟨t'', rfl, h5⟩ | ⟨h4, h5⟩
              · exact .line3 _ _ (by rw [← h5]; exact h1)
              · exact .line _ _ _ h4 h5 h1
            exact done hat h1 h2 hsk (by simpa [LexState.at] using hadv) h3
        · rename_i hc
          split at h
          · rename_i hc2
            simp only [Bool.and_eq_true, beq_iff_eq, peekRune] at hc2
            obtain ⟨rfl, hh⟩ := hc2
            split at h
            · simp at h
            · rename_i st'' hs
              obtain ⟨mid, h1, h2, h3⟩ := ih h
              obtain ⟨t', rfl⟩ : ∃ t', t = '*' :: t' := by
                cases t with
                | nil => simp [LexState.at] at hh
                | cons d t' => simp [LexState.at] at hh; exact ⟨t', by rw [hh]⟩
              have hat := skipBlockComment_at hs
              have hadv := (skipBlockComment_advance hs).suffix.length_le
              have hsk : SkipTo ('/' :: '*' :: t') mid := by
                rcases skipBlockComment_spec (t := t') rfl hs with ⟨t'', rfl, h5⟩ | ⟨h4, h5 | ⟨h5, _, h6⟩⟩
                · exact .blockSlash _ _ (by rw [← h5]; exact h1)
                · exact .block _ _ _ h4 h5 h1
                · rw [h5] at h1
                  cases h1
                  exact .blockOpen _ h4 h6
              exact done hat h1 h2 hsk (by simpa [LexState.at] using hadv) h3
          · rename_i hc2
            have hno : NoSkip (c :: t) := noSkip_of_checks (st := st.at t) rfl hw hc hc2
            refine ⟨c :: t, .done _, hno, ?_⟩
            rw [adjAfter_self, ← hr, LexState.at_self]
            rw [← h0, lexGo_finish (by rw [hr]; exact hno)]

/-- The loop follows any skipping. -/
theorem lexGo_skip {u : Unicode} {t mid : Str} (h : SkipTo t mid) : ∀ (fuel : Nat) (adj : Bool)
    (st : LexState) (lval : LVal), st.rest = t → st.fin = .eof → t.length < fuel → NoSkip mid →
    lexGo u fuel adj st lval = lexFinish u (adjAfter adj t mid) (st.at mid) lval := by
  induction h with
  | done t =>
    intro fuel adj st lval hr hf hfu hn
    obtain ⟨k, rfl⟩ : ∃ k, fuel = k + 1 := ⟨fuel - 1, by omega⟩
    rw [lexGo_finish (by rw [hr]; exact hn), adjAfter_self, ← hr, LexState.at_self]
  | white c t r hw hs ih =>
    intro fuel adj st lval hr hf hfu hn
    obtain ⟨k, rfl⟩ : ∃ k, fuel = k + 1 := ⟨fuel - 1, by omega⟩
    simp only [lexGo, readRune_cons hr, (isWhitespace_iff c).2 hw, if_true]
    simp only [List.length_cons] at hfu
    rw [ih k false (st.at t) lval rfl hf (by omega) hn, LexState.at_at, adjAfter_false, adjAfter_lt]
    have := hs.suffix.length_le
    simp; omega
  | line t m r h4 h5 hs ih =>
    intro fuel adj st lval hr hf hfu hn
    obtain ⟨k, rfl⟩ : ∃ k, fuel = k + 1 := ⟨fuel - 1, by omega⟩
    have hlen := h5.suffix.length_le
    have hlen2 := hs.suffix.length_le
    simp only [List.length_cons] at hfu
    obtain ⟨⟨r1, ln1⟩, hg⟩ := Option.isSome_iff_exists.1
      (skipLine_total ('-' :: t) false (st.at ('-' :: t)).lineNo)
    have hsk : skipLineComment (st.at ('-' :: t)) =
        some { st.at ('-' :: t) with rest := r1, lineNo := ln1 } := by
      simp only [skipLineComment]
      rw [show (st.at ('-' :: t)).fin = .eof from hf, show (st.at ('-' :: t)).rest = '-' :: t from rfl, hg]
      rfl
    have hspec := skipLineComment_spec (t := t) rfl hsk
    have hr1 : r1 = m := by
      rcases hspec with ⟨t', rfl, _⟩ | ⟨_, h7⟩
      · simp at h4
      · exact h7.det h5
    subst hr1
    have hat := skipLineComment_at hsk
    simp only [lexGo, readRune_cons hr, show isWhitespace '-' = false by decide, Bool.false_eq_true,
      if_false, head_peek (st := st.at ('-' :: t)) rfl, beq_self_eq_true, Bool.and_self, if_true, hsk]
    rw [hat, LexState.at_at]
    change lexGo u k false (st.at r1) lval = _
    rw [ih k false (st.at r1) lval rfl hf (by omega) hn, LexState.at_at, adjAfter_false, adjAfter_lt]
    simp; omega
  | line3 t r hs ih =>
    intro fuel adj st lval hr hf hfu hn
    obtain ⟨k, rfl⟩ : ∃ k, fuel = k + 1 := ⟨fuel - 1, by omega⟩
    have hlen2 := hs.suffix.length_le
    simp only [List.length_cons] at hfu
    obtain ⟨⟨r1, ln1⟩, hg⟩ := Option.isSome_iff_exists.1
      (skipLine_total ('-' :: '-' :: t) false (st.at ('-' :: '-' :: t)).lineNo)
    have hsk : skipLineComment (st.at ('-' :: '-' :: t)) =
        some { st.at ('-' :: '-' :: t) with rest := r1, lineNo := ln1 } := by
      simp only [skipLineComment]
      rw [show (st.at ('-' :: '-' :: t)).fin = .eof from hf,
        show (st.at ('-' :: '-' :: t)).rest = '-' :: '-' :: t from rfl, hg]
      rfl
    have hspec := skipLineComment_spec (t := '-' :: t) rfl hsk
    have hr1 : r1 = t := by
      rcases hspec with ⟨t', h6, h7⟩ | ⟨h7, _⟩
      · simp at h6; rw [h6]; exact h7
      · simp at h7
    subst hr1
    have hat := skipLineComment_at hsk
    simp only [lexGo, readRune_cons hr, show isWhitespace '-' = false by decide, Bool.false_eq_true,
      if_false, head_peek (st := st.at ('-' :: '-' :: r1)) rfl, beq_self_eq_true, Bool.and_self, if_true, hsk]
    rw [hat, LexState.at_at]
    change lexGo u k false (st.at r1) lval = _
    rw [ih k false (st.at r1) lval rfl hf (by omega) hn, LexState.at_at, adjAfter_false, adjAfter_lt]
    simp; omega
  | block t m r h4 h5 hs ih =>
    intro fuel adj st lval hr hf hfu hn
    obtain ⟨k, rfl⟩ : ∃ k, fuel = k + 1 := ⟨fuel - 1, by omega⟩
    have hlen := h5.suffix.length_le
    have hlen2 := hs.suffix.length_le
    simp only [List.length_cons] at hfu
    obtain ⟨⟨r1, ln1⟩, hg⟩ := Option.isSome_iff_exists.1
      (skipBlock_total (('*' :: t).length + 1) false false ('*' :: t) (st.at ('*' :: t)).lineNo (by omega))
    have hsk : skipBlockComment (st.at ('*' :: t)) =
        some { st.at ('*' :: t) with rest := r1, lineNo := ln1 } := by
      simp only [skipBlockComment]
      rw [show (st.at ('*' :: t)).fin = .eof from hf, show (st.at ('*' :: t)).rest = '*' :: t from rfl, hg]
      rfl
    have hspec := skipBlockComment_spec (t := t) rfl hsk
    have hr1 : r1 = m := by
      rcases hspec with ⟨t', rfl, _⟩ | ⟨_, h7 | ⟨_, _, h7⟩⟩
      · simp at h4
      · exact h7.det h5
      · exact absurd ⟨_, h5⟩ h7
    subst hr1
    have hat := skipBlockComment_at hsk
    simp only [lexGo, readRune_cons hr, show isWhitespace '/' = false by decide, Bool.false_eq_true,
      if_false, head_peek (st := st.at ('*' :: t)) rfl, beq_self_eq_true, Bool.and_self, if_true, hsk,
      show ('/' == '-') = false by decide, Bool.false_and]
    rw [hat, LexState.at_at]
    change lexGo u k false (st.at r1) lval = _
    rw [ih k false (st.at r1) lval rfl hf (by omega) hn, LexState.at_at, adjAfter_false, adjAfter_lt]
    simp; omega
  | blockSlash t r hs ih =>
    intro fuel adj st lval hr hf hfu hn
    obtain ⟨k, rfl⟩ : ∃ k, fuel = k + 1 := ⟨fuel - 1, by omega⟩
    have hlen2 := hs.suffix.length_le
    simp only [List.length_cons] at hfu
    obtain ⟨⟨r1, ln1⟩, hg⟩ := Option.isSome_iff_exists.1
      (skipBlock_total (('*' :: '/' :: t).length + 1) false false ('*' :: '/' :: t)
        (st.at ('*' :: '/' :: t)).lineNo (by omega))
    have hsk : skipBlockComment (st.at ('*' :: '/' :: t)) =
        some { st.at ('*' :: '/' :: t) with rest := r1, lineNo := ln1 } := by
      simp only [skipBlockComment]
      rw [show (st.at ('*' :: '/' :: t)).fin = .eof from hf,
        show (st.at ('*' :: '/' :: t)).rest = '*' :: '/' :: t from rfl, hg]
      rfl
    have hspec := skipBlockComment_spec (t := '/' :: t) rfl hsk
    have hr1 : r1 = t := by
      rcases hspec with ⟨t', h6, h7⟩ | ⟨h7, _⟩
      · simp at h6; rw [h6]; exact h7
      · simp at h7
    subst hr1
    have hat := skipBlockComment_at hsk
    simp only [lexGo, readRune_cons hr, show isWhitespace '/' = false by decide, Bool.false_eq_true,
      if_false, head_peek (st := st.at ('*' :: '/' :: r1)) rfl, beq_self_eq_true, Bool.and_self, if_true,
      hsk, show ('/' == '-') = false by decide, Bool.false_and]
    rw [hat, LexState.at_at]
    change lexGo u k false (st.at r1) lval = _
    rw [ih k false (st.at r1) lval rfl hf (by omega) hn, LexState.at_at, adjAfter_false, adjAfter_lt]
    simp; omega
  | blockOpen t h4 h5 =>
    intro fuel adj st lval hr hf hfu hn
    obtain ⟨k, rfl⟩ : ∃ k, fuel = k + 2 := ⟨fuel - 2, by simp at hfu; omega⟩
    obtain ⟨⟨r1, ln1⟩, hg⟩ := Option.isSome_iff_exists.1
      (skipBlock_total (('*' :: t).length + 1) false false ('*' :: t) (st.at ('*' :: t)).lineNo (by omega))
    have hsk : skipBlockComment (st.at ('*' :: t)) =
        some { st.at ('*' :: t) with rest := r1, lineNo := ln1 } := by
      simp only [skipBlockComment]
      rw [show (st.at ('*' :: t)).fin = .eof from hf, show (st.at ('*' :: t)).rest = '*' :: t from rfl, hg]
      rfl
    have hspec := skipBlockComment_spec (t := t) rfl hsk
    have hr1 : r1 = [] := by
      rcases hspec with ⟨t', rfl, _⟩ | ⟨_, h7 | ⟨h7, _⟩⟩
      · simp at h4
      · exact absurd ⟨_, h7⟩ h5
      · exact h7
    subst hr1
    have hat := skipBlockComment_at hsk
    have e : lexGo u (k + 2) adj st lval = lexGo u (k + 1) false (st.at []) lval := by
      rw [lexGo]
      simp only [readRune_cons hr, show isWhitespace '/' = false by decide, Bool.false_eq_true,
        if_false, head_peek (st := st.at ('*' :: t)) rfl, beq_self_eq_true, Bool.and_self, if_true, hsk,
        show ('/' == '-') = false by decide, Bool.false_and]
      rw [hat, LexState.at_at]
    rw [e, lexGo_finish hn, adjAfter_lt]
    simp

/-- Every text can be skipped up to something that is not skipped. -/
theorem exists_skip (t : Str) : ∃ mid, SkipTo t mid ∧ NoSkip mid := by
  induction hn : t.length using Nat.strongRecOn generalizing t with
  | ind n ih =>
    cases t with
    | nil => exact ⟨[], .done _, by simp, by simp, by simp⟩
    | cons c t =>
      simp only [List.length_cons] at hn
      by_cases hw : White c
      · obtain ⟨mid, h1, h2⟩ := ih t.length (by omega) t rfl
        exact ⟨mid, .white _ _ _ hw h1, h2⟩
      · by_cases hl : ['-', '-'] <+: c :: t
        · obtain ⟨s, hs⟩ := hl
          simp at hs
          obtain ⟨rfl, rfl⟩ := hs
          by_cases h3 : s.head? = some '-'
          · cases s with
            | nil => simp at h3
            | cons x s =>
              simp at h3; subst h3
              obtain ⟨mid, h1, h2⟩ := ih s.length (by simp at hn; omega) s rfl
              exact ⟨mid, .line3 _ _ h1, h2⟩
          · obtain ⟨⟨r1, ln1⟩, hg⟩ := Option.isSome_iff_exists.1 (skipLine_total s false 0)
            have hlt := (skipLine_spec _ _ _ _ _).1 hg
            have := hlt.suffix.length_le
            obtain ⟨mid, h1, h2⟩ := ih r1.length (by simp at hn; omega) r1 rfl
            exact ⟨mid, .line _ _ _ h3 hlt h1, h2⟩
        · by_cases hb : ['/', '*'] <+: c :: t
          · obtain ⟨s, hs⟩ := hb
            simp at hs
            obtain ⟨rfl, rfl⟩ := hs
            by_cases h3 : s.head? = some '/'
            · cases s with
              | nil => simp at h3
              | cons x s =>
                simp at h3; subst h3
                obtain ⟨mid, h1, h2⟩ := ih s.length (by simp at hn; omega) s rfl
                exact ⟨mid, .blockSlash _ _ h1, h2⟩
            · by_cases ho : ∃ r, BlockTo s r
              · obtain ⟨r1, hlt⟩ := ho
                have := hlt.suffix.length_le
                obtain ⟨mid, h1, h2⟩ := ih r1.length (by simp at hn; omega) r1 rfl
                exact ⟨mid, .block _ _ _ h3 hlt h1, h2⟩
              · exact ⟨[], .blockOpen _ h3 ho, by simp, by simp, by simp⟩
          · refine ⟨c :: t, .done _, ?_, hl, hb⟩
            intro x hx; simp at hx; subst hx; exact hw

theorem lexLexeme_total {u : Unicode} {adj : Bool} {r : Char} {st : LexState} {lval : LVal}
    (hf : st.fin = .eof) : (lexLexeme u adj r st lval).isSome = true := by
  have pt : ∀ a b, ∃ v, peekTwo a b st = some v := by
    intro a b; unfold peekTwo; split
    · exact ⟨_, rfl⟩
    · rw [hf]; exact ⟨_, rfl⟩
  obtain ⟨v1, hv1⟩ := pt ':' '='
  obtain ⟨v2, hv2⟩ := pt '.' '.'
  unfold lexLexeme
  split
  · split
    · rfl
    · split
      · rfl
      · split
        · split <;> rfl
        · rfl
  · split
    · rfl
    · rw [hv1, hv2]
      split
      · rename_i h; split at h <;> simp at h
      · rfl
      · split
        · rename_i h; split at h <;> simp at h
        · rfl
        · repeat' (first | rfl | split)

theorem lex_total {u : Unicode} {st : LexState} {lval : LVal} (hf : st.fin = .eof) :
    (lex u st lval).isSome = true := by
  obtain ⟨mid, h1, h2⟩ := exists_skip st.rest
  unfold lex
  rw [lexGo_skip h1 _ _ { st with lastWasNumber := false } _ rfl hf (by omega) h2]
  unfold lexFinish
  cases hm : mid with
  | nil => simp [LexState.at, hf]
  | cons c t =>
    simp only [LexState.at]
    exact lexLexeme_total (by simp [readRune, hf])

end Asn1go
