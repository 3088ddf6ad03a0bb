import Verif.Spec.Stuck
import Verif.Proofs.Reads

/-! A call of `Lex` on a failing reader does not return exactly when the text is `Stuck`. -/

namespace Asn1go

open Spec

theorem infix_cons {a b : Char} {t : Str} : ['-', '-'] <:+: (a :: b :: t) ↔ (a = '-' ∧ b = '-') ∨ ['-', '-'] <:+: (b :: t) := by
  rw [List.infix_cons_iff]
  constructor
  · rintro (⟨s, hs⟩ | h)
    · simp at hs; exact .inl ⟨hs.1.symm, hs.2.1.symm⟩
    · exact .inr h
  · rintro (⟨rfl, rfl⟩ | h)
    · exact .inl ⟨t, rfl⟩
    · exact .inr h

theorem skipLine_open (t : Str) : ∀ ln,
    (skipLineCommentGo .fail false t ln = none ↔ LineOpen t) ∧
    (skipLineCommentGo .fail true t ln = none ↔ LineOpen t ∧ t.head? ≠ some '-') := by
  induction t with
  | nil =>
    intro ln
    have : LineOpen [] := ⟨by simp, by simp [List.infix_nil]⟩
    simp [skipLineCommentGo, this]
  | cons c t ih =>
    intro ln
    have hcons : LineOpen (c :: t) ↔ ¬ LineEnd c ∧ LineOpen t ∧ ¬ (c = '-' ∧ t.head? = some '-') := by
      unfold LineOpen
      cases t with
      | nil =>
        have : ¬ ['-', '-'] <:+: [c] := fun h => by have := h.length_le; simp at this
        simp [this, List.infix_nil]
      | cons d t =>
        rw [infix_cons]
        simp only [List.mem_cons, forall_eq_or_imp, not_or, List.head?_cons, Option.some.injEq]
        exact ⟨fun ⟨⟨a, b⟩, c, d⟩ => ⟨a, ⟨b, d⟩, c⟩, fun ⟨a, ⟨b, d⟩, c⟩ => ⟨⟨a, b⟩, c, d⟩⟩
    by_cases hn : isNewline c = true
    · have := (isNewline_iff c).1 hn
      simp [skipLineCommentGo, hn, hcons, this]
    · have hl : ¬ LineEnd c := fun h => hn ((isNewline_iff c).2 h)
      by_cases hc : c = '-'
      · subst hc
        simp only [skipLineCommentGo, hn, hcons, hl]
        simpa using (ih ln).2
      · have hb : (c == '-') = false := by simpa using hc
        simp only [skipLineCommentGo, hn, hcons, hl, hb, hc]
        simpa [hc] using (ih ln).1

theorem skipLineComment_open {st : LexState} {t : Str} (hr : st.rest = '-' :: t) (hf : st.fin = .fail) :
    skipLineComment st = none ↔ t.head? ≠ some '-' ∧ LineOpen t := by
  unfold skipLineComment
  rw [Option.map_eq_none_iff, hr, hf]
  simp only [skipLineCommentGo, show isNewline '-' = false by decide, Bool.false_eq_true, if_false, beq_self_eq_true, if_true]
  rw [(skipLine_open t _).2, and_comm]

theorem BlockTo.char_inv {c : Char} {t r : Str} (h1 : ¬ (c = '*' ∧ t.head? = some '/')) (h2 : ¬ (c = '/' ∧ t.head? = some '*')) :
    BlockTo (c :: t) r ↔ BlockTo t r := by
  constructor
  · intro h
    cases h with
    | close => exact absurd ⟨rfl, rfl⟩ h1
    | nest => exact absurd ⟨rfl, rfl⟩ h2
    | char _ _ _ _ _ h => exact h
  · exact .char _ _ _ h1 h2

theorem BlockTo.close_inv {t r : Str} : BlockTo ('*' :: '/' :: t) r ↔ r = t := by
  constructor
  · intro h
    cases h with
    | close => rfl
    | char _ _ _ h => exact absurd ⟨rfl, rfl⟩ h
  · rintro rfl; exact .close _

theorem BlockTo.nest_inv {t r : Str} : BlockTo ('/' :: '*' :: t) r ↔ ∃ m, BlockTo t m ∧ BlockTo m r := by
  constructor
  · intro h
    cases h with
    | nest _ m _ h1 h2 => exact ⟨m, h1, h2⟩
    | char _ _ _ _ h => exact absurd ⟨rfl, rfl⟩ h
  · rintro ⟨m, h1, h2⟩; exact .nest _ _ _ h1 h2

/-- On a failing reader a block comment is read to its end, if it has one. -/
theorem skipBlock_fail (fuel : Nat) : ∀ (o c : Bool) (t : Str) ln, (o && c) = false → t.length < fuel →
    ∀ r, BlockTo (flagPrefix o c ++ t) r → ∃ ln', skipBlockCommentGo .fail fuel o c t ln = some (r, ln') := by
  induction fuel with
  | zero => intro o c t ln _ h; omega
  | succ fuel ih =>
    intro o c t ln hoc hlen r h
    cases t with
    | nil =>
      exfalso
      cases o <;> cases c <;> simp [flagPrefix] at h hoc
      · cases h
      · exact blockOpen_single _ ⟨_, h⟩
      · exact blockOpen_single _ ⟨_, h⟩
    | cons x t =>
      simp only [List.length_cons] at hlen
      have hlen : t.length < fuel := by omega
      simp only [skipBlockCommentGo]
      by_cases hx : x = '/'
      · subst hx
        simp only [beq_self_eq_true, if_true]
        cases c with
        | true =>
          have ho : o = false := by simpa using hoc
          subst ho
          simp only [flagPrefix, Bool.false_eq_true, if_false, if_true, List.cons_append, List.nil_append] at h
          rw [BlockTo.close_inv] at h
          subst h
          exact ⟨_, rfl⟩
        | false =>
          simp only [Bool.false_eq_true, if_false]
          refine ih _ _ _ _ rfl hlen r ?_
          cases o with
          | false => simpa [flagPrefix] using h
          | true =>
            simp only [flagPrefix, if_true, List.cons_append, List.nil_append] at h ⊢
            rwa [BlockTo.char_inv (by simp) (by simp)] at h
      · have hxb : (x == '/') = false := by simpa using hx
        simp only [hxb, Bool.false_eq_true, if_false]
        by_cases hs : x = '*'
        · subst hs
          simp only [beq_self_eq_true, if_true]
          cases o with
          | true =>
            have hc : c = false := by simpa using hoc
            subst hc
            simp only [flagPrefix, if_true, List.cons_append, List.nil_append] at h
            rw [BlockTo.nest_inv] at h
            obtain ⟨m, h1, h2⟩ := h
            obtain ⟨l1, e1⟩ := ih false false t (if isNewline '*' = true then ln + 1 else ln) rfl hlen m h1
            simp only [if_true, e1]
            have := h1.suffix.length_le
            exact ih false false m l1 rfl (by omega) r h2
          | false =>
            simp only [Bool.false_eq_true, if_false]
            refine ih _ _ _ _ rfl hlen r ?_
            cases c with
            | false => simpa [flagPrefix] using h
            | true =>
              simp only [flagPrefix, Bool.false_eq_true, if_false, if_true, List.cons_append, List.nil_append] at h ⊢
              rwa [BlockTo.char_inv (by simp) (by simp)] at h
        · have hsb : (x == '*') = false := by simpa using hs
          simp only [hsb, Bool.false_eq_true, if_false]
          refine ih _ _ _ _ rfl hlen r ?_
          have key : BlockTo (x :: t) r → BlockTo (flagPrefix false false ++ t) r := by
            intro h
            rwa [BlockTo.char_inv (by simp [hs]) (by simp [hx])] at h
          cases o <;> cases c <;> simp only [flagPrefix, Bool.false_eq_true, if_false, if_true, List.cons_append, List.nil_append] at h
          · exact key h
          · rw [BlockTo.char_inv (by simp [hx]) (by simp)] at h; exact key h
          · rw [BlockTo.char_inv (by simp) (by simp [hs])] at h; exact key h
          · simp at hoc

theorem skipBlockComment_open {st : LexState} {t : Str} (hr : st.rest = '*' :: t) (hf : st.fin = .fail) :
    skipBlockComment st = none ↔ t.head? ≠ some '/' ∧ BlockOpen t := by
  have key : skipBlockComment st = none ↔ BlockOpen ('*' :: t) := by
    unfold skipBlockComment
    rw [Option.map_eq_none_iff, hr, hf]
    constructor
    · rintro h ⟨r, hr⟩
      obtain ⟨l, e⟩ := skipBlock_fail (('*' :: t).length + 1) false false ('*' :: t) st.lineNo rfl (by omega) r hr
      rw [e] at h; cases h
    · intro h
      cases e : skipBlockCommentGo .fail (('*' :: t).length + 1) false false ('*' :: t) st.lineNo with
      | none => rfl
      | some p =>
        rcases skipBlock_spec .fail _ _ _ _ _ p.1 p.2 rfl e with h1 | ⟨_, h1, _⟩
        · exact absurd ⟨_, h1⟩ h
        · cases h1
  rw [key]
  by_cases ht : t.head? = some '/'
  · cases t with
    | nil => simp at ht
    | cons d t =>
      simp at ht; subst ht
      simp [BlockOpen, BlockTo.close_inv]
  · unfold BlockOpen
    simp only [ne_eq, ht, not_false_eq_true, true_and]
    simp only [BlockTo.char_inv (c := '*') (fun h => ht h.2) (by simp)]

theorem not_letter_colon (u : Unicode) : u.isLetter ':' = false ∧ u.isDigit ':' = false := by
  rw [u.letter_ascii _ (by decide), u.digit_ascii _ (by decide)]; decide
theorem not_letter_dot (u : Unicode) : u.isLetter '.' = false ∧ u.isDigit '.' = false := by
  rw [u.letter_ascii _ (by decide), u.digit_ascii _ (by decide)]; decide

theorem peekTwo_fail {a b : Char} {st : LexState} (hf : st.fin = .fail) : peekTwo a b st = none ↔ st.rest.length < 2 := by
  unfold peekTwo
  split
  · next h => rw [h]; simp
  · next h =>
    rw [hf]
    simp only [true_iff]
    match hr : st.rest with
    | [] => simp
    | [_] => simp
    | x :: y :: t => exact absurd hr (h x y t)

theorem lexLexeme_stuck {u : Unicode} {adj : Bool} {r : Char} {st : LexState} {lval : LVal} (hf : st.fin = .fail) :
    lexLexeme u adj r st lval = none ↔ (r = ':' ∨ r = '.') ∧ st.rest.length < 2 := by
  constructor
  · intro h
    unfold lexLexeme at h
    split at h
    · exfalso
      split at h
      · cases h
      · split at h
        · cases h
        · split at h
          · split at h <;> cases h
          · cases h
    · split at h
      · cases h
      · split at h
        · next h1 =>
          split at h1
          · next hr => exact ⟨.inl (by simpa using hr), (peekTwo_fail hf).1 h1⟩
          · cases h1
        · cases h
        · split at h
          · next h1 =>
            split at h1
            · next hr => exact ⟨.inr (by simpa using hr), (peekTwo_fail hf).1 h1⟩
            · cases h1
          · cases h
          · exfalso
            repeat' (first | (cases h; done) | split at h)
  · rintro ⟨rfl | rfl, hl⟩
    · have := not_letter_colon u
      simp [lexLexeme, this, (peekTwo_fail hf).2 hl]
    · have := not_letter_dot u
      simp [lexLexeme, this, (peekTwo_fail hf).2 hl]

/-- The loop of `Lex` does not return exactly when the text is stuck. -/
theorem lexGo_stuck {u : Unicode} : ∀ (fuel : Nat) (adj : Bool) (st : LexState) (lval : LVal), st.fin = .fail → st.rest.length < fuel →
    lexGo u fuel adj st lval = none → Stuck st.rest
  | 0, _, _, _, _, h => by omega
  | fuel + 1, adj, st, lval, hf, hl => by
    intro h
    cases hr : st.rest with
    | nil => simp [lexGo, readRune, hr, hf] at h
    | cons c t =>
      rw [hr] at hl
      simp only [List.length_cons] at hl
      simp only [lexGo, readRune_cons hr] at h
      have hft : (st.at t).fin = .fail := hf
      split at h
      · next hw =>
        obtain ⟨m, h1, h2⟩ := lexGo_stuck fuel false (st.at t) lval hft (by show t.length < fuel; omega) h
        exact ⟨m, .white _ _ _ ((isWhitespace_iff _).1 hw) h1, h2⟩
      · next hw =>
        split at h
        · next hc =>
          simp only [Bool.and_eq_true, beq_iff_eq, peekRune] at hc
          obtain ⟨rfl, hh⟩ := hc
          obtain ⟨t', rfl⟩ : ∃ t', t = '-' :: t' := by
            cases t with
            | nil => simp [LexState.at] at hh
            | cons d t' => simp [LexState.at] at hh; exact ⟨t', by rw [hh]⟩
          split at h
          · next hs =>
            obtain ⟨h1, h2⟩ := (skipLineComment_open (st := st.at ('-' :: t')) rfl hf).1 hs
            exact ⟨_, .done _, .line _ h1 h2⟩
          · next st'' hs =>
            have hat := skipLineComment_at hs
            have hadv := (skipLineComment_advance hs).suffix.length_le
            simp only [LexState.at, List.length_cons] at hadv
            obtain ⟨m, h1, h2⟩ := lexGo_stuck fuel false st'' lval (by rw [hat]; exact hf) (by simp at hl; omega) h
            refine ⟨m, ?_, h2⟩
            rcases skipLineComment_spec (t := t') rfl hs with ⟨t'', rfl, h5⟩ | ⟨h4, h5⟩
            · exact .line3 _ _ (by rw [← h5]; exact h1)
            · exact .line _ _ _ h4 h5 h1
        · next hc =>
          split at h
          · next hc2 =>
            simp only [Bool.and_eq_true, beq_iff_eq, peekRune] at hc2
            obtain ⟨rfl, hh⟩ := hc2
            obtain ⟨t', rfl⟩ : ∃ t', t = '*' :: t' := by
              cases t with
              | nil => simp [LexState.at] at hh
              | cons d t' => simp [LexState.at] at hh; exact ⟨t', by rw [hh]⟩
            split at h
            · next hs =>
              obtain ⟨h1, h2⟩ := (skipBlockComment_open (st := st.at ('*' :: t')) rfl hf).1 hs
              exact ⟨_, .done _, .block _ h1 h2⟩
            · next st'' hs =>
              have hat := skipBlockComment_at hs
              have hadv := (skipBlockComment_advance hs).suffix.length_le
              simp only [LexState.at, List.length_cons] at hadv
              obtain ⟨m, h1, h2⟩ := lexGo_stuck fuel false st'' lval (by rw [hat]; exact hf) (by simp at hl; omega) h
              refine ⟨m, ?_, h2⟩
              rcases skipBlockComment_spec (t := t') rfl hs with ⟨t'', rfl, h5⟩ | ⟨h4, h5 | ⟨_, h5, _⟩⟩
              · exact .blockSlash _ _ (by rw [← h5]; exact h1)
              · exact .block _ _ _ h4 h5 h1
              · rw [show (st.at ('*' :: t')).fin = .fail from hf] at h5; cases h5
          · obtain ⟨h1, h2⟩ := (lexLexeme_stuck hft).1 h
            rcases h1 with rfl | rfl
            · exact ⟨_, .done _, .colon _ h2⟩
            · exact ⟨_, .done _, .dot _ h2⟩

theorem lexGo_stuckAt {u : Unicode} {m : Str} (h : StuckAt m) (fuel : Nat) (adj : Bool) (st : LexState) (lval : LVal) (hf : st.fin = .fail)
    (hr : st.rest = m) : lexGo u fuel adj st lval = none := by
  cases fuel with
  | zero => rfl
  | succ fuel =>
    cases h with
    | line t h1 h2 =>
      simp only [lexGo, readRune_cons hr]
      simp [show isWhitespace '-' = false by decide, peekRune, LexState.at]
      have := (skipLineComment_open (st := st.at ('-' :: t)) rfl hf).2 ⟨h1, h2⟩
      simp only [LexState.at] at this
      rw [this]
    | block t h1 h2 =>
      simp only [lexGo, readRune_cons hr]
      have := (skipBlockComment_open (st := st.at ('*' :: t)) rfl hf).2 ⟨h1, h2⟩
      simp only [LexState.at] at this
      simp [show isWhitespace '/' = false by decide, peekRune, LexState.at, this]
    | colon t h1 =>
      simp only [lexGo, readRune_cons hr]
      have := (lexLexeme_stuck (u := u) (adj := adj) (r := ':') (st := st.at t) (lval := lval) hf).2 ⟨.inl rfl, h1⟩
      simp [show isWhitespace ':' = false by decide, this]
    | dot t h1 =>
      simp only [lexGo, readRune_cons hr]
      have := (lexLexeme_stuck (u := u) (adj := adj) (r := '.') (st := st.at t) (lval := lval) hf).2 ⟨.inr rfl, h1⟩
      simp [show isWhitespace '.' = false by decide, this]

theorem lexGo_stuckTo {u : Unicode} {t m : Str} (hs : SkipTo t m) (hm : StuckAt m) : ∀ (fuel : Nat) (adj : Bool) (st : LexState) (lval : LVal),
    st.fin = .fail → st.rest = t → lexGo u fuel adj st lval = none := by
  induction hs with
  | done t => exact lexGo_stuckAt hm
  | white c t r hw _ ih =>
    rintro (_ | fuel) adj st lval hf hr
    · rfl
    · simp only [lexGo, readRune_cons hr, (isWhitespace_iff c).2 hw, if_true]
      exact ih hm fuel false (st.at t) lval hf rfl
  | line t mm r h1 h2 _ ih =>
    rintro (_ | fuel) adj st lval hf hr
    · rfl
    · simp only [lexGo, readRune_cons hr]
      simp only [show isWhitespace '-' = false by decide, Bool.false_eq_true, if_false]
      rw [if_pos (by simp [peekRune, LexState.at])]
      split
      · rfl
      · next st'' hs =>
        have hat := skipLineComment_at hs
        refine ih hm fuel false st'' lval (by rw [hat]; exact hf) ?_
        rcases skipLineComment_spec (t := t) rfl hs with ⟨t'', rfl, h5⟩ | ⟨h4, h5⟩
        · simp at h1
        · exact h5.det h2
  | line3 t r _ ih =>
    rintro (_ | fuel) adj st lval hf hr
    · rfl
    · simp only [lexGo, readRune_cons hr]
      simp only [show isWhitespace '-' = false by decide, Bool.false_eq_true, if_false]
      rw [if_pos (by simp [peekRune, LexState.at])]
      split
      · rfl
      · next st'' hs =>
        have hat := skipLineComment_at hs
        refine ih hm fuel false st'' lval (by rw [hat]; exact hf) ?_
        rcases skipLineComment_spec (t := '-' :: t) rfl hs with ⟨t'', e, h5⟩ | ⟨h4, h5⟩
        · cases e; exact h5
        · simp at h4
  | block t mm r h1 h2 _ ih =>
    rintro (_ | fuel) adj st lval hf hr
    · rfl
    · simp only [lexGo, readRune_cons hr]
      simp only [show isWhitespace '/' = false by decide, Bool.false_eq_true, if_false]
      rw [if_neg (by simp), if_pos (by simp [peekRune, LexState.at])]
      split
      · rfl
      · next st'' hs =>
        have hat := skipBlockComment_at hs
        refine ih hm fuel false st'' lval (by rw [hat]; exact hf) ?_
        rcases skipBlockComment_spec (t := t) rfl hs with ⟨t'', rfl, h5⟩ | ⟨h4, h5 | ⟨_, h5, _⟩⟩
        · simp at h1
        · exact h5.det h2
        · rw [show (st.at ('*' :: t)).fin = .fail from hf] at h5; cases h5
  | blockSlash t r _ ih =>
    rintro (_ | fuel) adj st lval hf hr
    · rfl
    · simp only [lexGo, readRune_cons hr]
      simp only [show isWhitespace '/' = false by decide, Bool.false_eq_true, if_false]
      rw [if_neg (by simp), if_pos (by simp [peekRune, LexState.at])]
      split
      · rfl
      · next st'' hs =>
        have hat := skipBlockComment_at hs
        refine ih hm fuel false st'' lval (by rw [hat]; exact hf) ?_
        rcases skipBlockComment_spec (t := '/' :: t) rfl hs with ⟨t'', e, h5⟩ | ⟨h4, _⟩
        · cases e; exact h5
        · simp at h4
  | blockOpen t h1 h2 => exact fun fuel adj st lval hf hr => lexGo_stuckAt (.block t h1 h2) fuel adj st lval hf hr

/-- On a failing reader, a call of `Lex` does not return exactly when the text is stuck. -/
theorem lex_stuck {u : Unicode} {st : LexState} {lval : LVal} (hf : st.fin = .fail) : lex u st lval = none ↔ Stuck st.rest := by
  constructor
  · exact fun h => lexGo_stuck (st.rest.length + 1) st.lastWasNumber { st with lastWasNumber := false } lval hf (by show st.rest.length < _; omega) h
  · rintro ⟨m, h1, h2⟩
    exact lexGo_stuckTo h1 h2 _ _ _ _ hf rfl

/-- The same lexer on a reader that ends without an error. -/
def LexState.ended (st : LexState) : LexState := { st with fin := .eof }

theorem peekTwo_ended {a b : Char} {st : LexState} {x : Bool} (h : peekTwo a b st = some x) : peekTwo a b st.ended = some x := by
  obtain ⟨rest, fin, err, last, line⟩ := st
  unfold peekTwo at h ⊢
  simp only [LexState.ended]
  simp only at h
  split at h
  · exact h
  · cases fin
    · exact h
    · cases h

theorem consumeWord_ended (u : Unicode) (st : LexState) : consumeWord u st.ended = ((consumeWord u st).1, (consumeWord u st).2.ended) := by
  obtain ⟨rest, fin, err, last, line⟩ := st
  cases rest <;> simp [consumeWord, LexState.ended]

theorem consumeNumber_ended (u : Unicode) (st : LexState) (lval : LVal) :
    consumeNumber u st.ended lval = ((consumeNumber u st lval).1, (consumeNumber u st lval).2.1, (consumeNumber u st lval).2.2.ended) := by
  obtain ⟨rest, fin, err, last, line⟩ := st
  cases rest with
  | nil => rfl
  | cons r cs =>
    simp only [consumeNumber, LexState.ended]
    split <;> simp [LexState.error]

theorem consumeSingleSymbol_ended (r : Char) (st : LexState) :
    consumeSingleSymbol r st.ended = ((consumeSingleSymbol r st).1, (consumeSingleSymbol r st).2.ended) := by
  have hite : ∀ {p : Prop} [Decidable p] {a a' : Int × LexState} {b b' : Int × LexState}, a' = (a.1, a.2.ended) → b' = (b.1, b.2.ended) →
      (if p then a' else b') = ((if p then a else b).1, (if p then a else b).2.ended) := by
    rintro p _ a a' b b' rfl rfl
    split <;> rfl
  unfold consumeSingleSymbol
  repeat' (first | rfl | refine hite rfl ?_)

theorem lexLexeme_ended {u : Unicode} {adj : Bool} {r : Char} {st st' : LexState} {lval lval' : LVal} {code : Int}
    (h : lexLexeme u adj r st lval = some (code, lval', st')) : lexLexeme u adj r st.ended lval = some (code, lval', st'.ended) := by
  have hcond : ∀ {a b : Char} {p x : Bool}, (if p = true then peekTwo a b st else some false) = some x →
      (if p = true then peekTwo a b st.ended else some false) = some x := by
    intro a b p x h
    split at h
    · next hp => rw [if_pos hp]; exact peekTwo_ended h
    · next hp => rw [if_neg hp]; exact h
  unfold lexLexeme at h ⊢
  split at h
  · next h1 =>
    rw [if_pos h1]
    split at h
    · next h2 => rw [if_pos h2]; cases h; rfl
    · next h2 =>
      rw [if_neg h2, show unreadRune r st.ended = (unreadRune r st).ended from rfl, consumeWord_ended]
      generalize consumeWord u (unreadRune r st) = x at h
      obtain ⟨x, s1⟩ := x
      cases x with
      | error m => cases h; rfl
      | ok content =>
        simp only at h ⊢
        split at h
        · next h3 =>
          rw [if_pos h3]
          split at h <;> (cases h; rfl)
        · next h3 => rw [if_neg h3]; cases h; rfl
  · next h1 =>
    rw [if_neg h1]
    split at h
    · next h2 =>
      rw [if_pos h2, show { unreadRune r st.ended with lastWasNumber := true } = ({ unreadRune r st with lastWasNumber := true } : LexState).ended from rfl,
        consumeNumber_ended]
      rw [Option.some.injEq] at h
      rw [h]
    · next h2 =>
      rw [if_neg h2]
      split at h
      · cases h
      · next h3 => rw [hcond h3]; cases h; rfl
      · next h3 =>
        rw [hcond h3]
        simp only
        split at h
        · cases h
        · next h4 => rw [hcond h4]; cases h; rfl
        · next h4 =>
          rw [hcond h4]
          simp only
          rw [show peekRune st.ended = peekRune st from rfl]
          split at h
          · next h5 => rw [if_pos h5]; cases h; rfl
          · next h5 =>
            rw [if_neg h5]
            split at h
            · next h6 => rw [if_pos h6]; cases h; rfl
            · next h6 =>
              rw [if_neg h6]
              split at h
              · next h7 => rw [if_pos h7]; cases h; rfl
              · next h7 =>
                rw [if_neg h7, consumeSingleSymbol_ended]
                cases h
                rfl

/-- A call of `Lex` on a failing reader that returns, and does not find that the reader has failed, does what it does on a reader that ends. -/
theorem lex_ended {u : Unicode} {st st' : LexState} {lval lval' : LVal} {code : Int} (h : lex u st lval = some (code, lval', st')) :
    SkipTo st.rest [] ∨ lex u st.ended lval = some (code, lval', st'.ended) := by
  unfold lex at h
  obtain ⟨mid, hs, hn, hf⟩ := lexGo_reach _ h
  cases mid with
  | nil => exact .inl hs
  | cons c t =>
    right
    unfold lex
    have hs' : SkipTo st.rest (c :: t) := hs
    refine (lexGo_skip hs' (st.rest.length + 1) st.lastWasNumber ({ st.ended with lastWasNumber := false }) lval rfl rfl (by omega) hn).trans ?_
    simp only [lexFinish] at hf ⊢
    exact lexLexeme_ended hf

/-- On a failing reader a token is read if the text is not stuck. -/
theorem lex_fail_token {u : Unicode} {st st' : LexState} {sp rest : Str} {code code' : Int} {p : Payload} {lval lval' : LVal}
    (hs : SkipTo st.rest (sp ++ rest)) (hl : Lexeme u (adjAfter st.lastWasNumber st.rest (sp ++ rest)) sp rest code p)
    (h : lex u st lval = some (code', lval', st')) : code' = code ∧ st'.err = st.err := by
  rcases lex_ended h with he | he
  · rw [adjAfter_eq hs] at hl
    exact absurd he (next_end hs hl)
  · rw [lex_complete (st := st.ended) lval rfl hs hl] at he
    simp only [Option.some.injEq, Prod.mk.injEq] at he
    refine ⟨he.1.symm, ?_⟩
    have := congrArg LexState.err he.2.2
    exact this.symm

/-- Once the reader has failed at the end of the text, it fails again. -/
theorem lex_fail_nil {u : Unicode} {st : LexState} (lval : LVal) (hf : st.fin = .fail) (hr : st.rest = []) :
    ∃ st', lex u st lval = some (-1, lval, st') ∧ st'.rest = [] ∧ st'.fin = .fail ∧ st'.err ≠ none := by
  refine ⟨_, by simp only [lex, lexGo, readRune, hr, hf]; rfl, ?_, ?_, ?_⟩
  · simp [LexState.error, hr]
  · simp [LexState.error, hf]
  · simp [LexState.error]

/-- Text that starts a token, or should, is not skipped. -/
theorem skip_nil {t mid : Str} {c : Char} (h : SkipTo t (c :: mid)) (hn : NoSkip (c :: mid)) : ¬ SkipTo t [] := by
  intro he
  have e1 := lex_complete_eof (u := asciiUnicode) (st := { rest := t, fin := .eof }) {} rfl he
  unfold lex at e1
  rw [lexGo_skip h (t.length + 1) false { rest := t, fin := .eof } {} rfl rfl (by omega) hn] at e1
  simp only [lexFinish, LexState.at] at e1
  rw [readRune_cons (c := c) (t := mid) rfl] at e1
  obtain ⟨sp, p, _, _, h3, _⟩ := lexLexeme_sound hn rfl e1 (by decide)
  have := h3.code_range
  omega

/-- Stuck text is no end of the tokens: it would be skipped, or be a token, if the reader ended. -/
theorem Spec.Stuck.noToken {u : Unicode} {adj : Bool} {t : Str} (h : Stuck t) : ¬ NoToken u adj t := by
  obtain ⟨m, h1, h2⟩ := h
  rintro ⟨h3, h4⟩
  cases h2 with
  | line t' h5 h6 =>
    refine h3 (h1.trans (.line t' [] [] h5 ?_ (.done _)))
    clear h1 h5
    induction t' with
    | nil => exact .eof
    | cons c t' ih =>
      refine .char c t' [] (h6.1 c (by simp)) ?_ (ih ⟨fun c hc => h6.1 c (by simp [hc]), fun h => h6.2 (h.trans (List.suffix_cons _ _).isInfix)⟩)
      rintro ⟨rfl, h⟩
      cases t' with
      | nil => simp at h
      | cons d t' => simp at h; subst h; exact h6.2 ⟨[], t', rfl⟩
  | block t' h5 h6 => exact h3 (h1.trans (.blockOpen t' h5 h6))
  | colon t' h5 =>
    refine h4 ⟨[':'], t', _, .none, h1, .symbol _ _ Tok.COLON (by decide) ?_ ?_⟩
    · exact ⟨by simp [White], by simp, by simp⟩
    · intro w' code' hm hp
      have : ∀ q ∈ symbols, q.1.head? = some ':' → q.1.length = 1 ∨ q.1 = c! "::=" := by decide +kernel
      have hw : w'.head? = some ':' ∨ w' = [] := by
        cases w' with
        | nil => exact .inr rfl
        | cons d w' => simp only [List.singleton_append, List.cons_prefix_cons] at hp; exact .inl (by simp [hp.1])
      rcases hw with hw | rfl
      · rcases this _ hm hw with h | h
        · simp at h; simp [h]
        · simp only at h
          subst h
          have := hp.length_le
          simp at this
          omega
      · simp
  | dot t' h5 =>
    by_cases hd : t'.head? = some '.'
    · cases t' with
      | nil => simp at hd
      | cons d t' =>
        simp at hd; subst hd
        have : t' = [] := by cases t' with
          | nil => rfl
          | cons => simp at h5; omega
        subst this
        refine h4 ⟨['.', '.'], [], _, .none, h1, .symbol _ _ Tok.RANGE_SEPARATOR (by decide) ?_ ?_⟩
        · exact ⟨by simp [White], by simp, by simp⟩
        · intro w' _ _ hp; have := hp.length_le; simpa using this
    · refine h4 ⟨['.'], t', _, .none, h1, .symbol _ _ Tok.DOT (by decide) ?_ ?_⟩
      · exact ⟨by simp [White], by simp, by simp⟩
      · intro w' code' hm hp
        have : ∀ q ∈ symbols, q.1.head? = some '.' → q.1.length = 1 ∨ q.1.tail.head? = some '.' := by decide +kernel
        cases w' with
        | nil => simp
        | cons d w' =>
          simp only [List.singleton_append, List.cons_prefix_cons] at hp
          rcases this _ hm (by simp [hp.1]) with h | h
          · simp at h; simp [h]
          · exfalso
            simp only [List.tail_cons] at h
            cases w' with
            | nil => simp at h
            | cons e w' =>
              simp at h; subst h
              obtain ⟨s, hs⟩ := hp.2
              exact hd (by rw [← hs]; rfl)

end Asn1go
