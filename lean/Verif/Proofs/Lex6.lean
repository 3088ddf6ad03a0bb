import Verif.Proofs.Lex5

/-! Consequences about skipping, words and numbers. -/

namespace Asn1go

open Spec

theorem Spec.SkipTo.trans {a b c : Str} (h : SkipTo a b) (h' : SkipTo b c) : SkipTo a c := by
  induction h with
  | done => exact h'
  | white c t r hw _ ih => exact .white _ _ _ hw (ih h')
  | line t m r h1 h2 _ ih => exact .line _ _ _ h1 h2 (ih h')
  | line3 t r _ ih => exact .line3 _ _ (ih h')
  | block t m r h1 h2 _ ih => exact .block _ _ _ h1 h2 (ih h')
  | blockSlash t r _ ih => exact .blockSlash _ _ (ih h')
  | blockOpen t h1 h2 =>
    generalize hb : ([] : Str) = b at h'
    cases h' with
    | done => rw [← hb]; exact .blockOpen _ h1 h2
    | white => cases hb
    | line => cases hb
    | line3 => cases hb
    | block => cases hb
    | blockSlash => cases hb
    | blockOpen => cases hb

/-- Lexing resumes where the skipped text ends. -/
theorem lex_skip {u : Unicode} {st : LexState} {r : Str} (lval : LVal) (hf : st.fin = .eof)
    (hs : SkipTo st.rest r) (hne : st.rest ≠ r) :
    lex u st lval = lex u { st.at r with lastWasNumber := false } lval := by
  obtain ⟨mid, h1, h2⟩ := exists_skip r
  have hlt : r.length < st.rest.length := by
    rcases Nat.lt_or_ge r.length st.rest.length with h | h
    · exact h
    · exact absurd (hs.suffix.eq_of_length_le h).symm hne
  have hle := h1.suffix.length_le
  unfold lex
  rw [lexGo_skip (hs.trans h1) _ _ { st with lastWasNumber := false } lval rfl hf (by omega) h2]
  rw [lexGo_skip (st := { st.at r with lastWasNumber := false }) (t := r) h1 _ _ lval rfl hf (by simp [LexState.at]) h2]
  rw [adjAfter_lt _ (by omega), adjAfter_false]
  congr 1
  simp only [LexState.at, LexState.mk.injEq, true_and]
  omega

/-- Histories of calls of `Lex` on a text. -/
inductive LexReach (u : Unicode) (text : Str) (fin : ReadEnd) : LexState → Prop
  | init : LexReach u text fin (LexState.init text fin)
  | call (st st' : LexState) (lval lval' : LVal) (code : Int) : LexReach u text fin st →
      lex u st lval = some (code, lval', st') → LexReach u text fin st'

theorem LexReach.lines {u : Unicode} {text : Str} {fin : ReadEnd} {st : LexState} (h : LexReach u text fin st) :
    st.rest <:+ text ∧ st.lineNo + lineEnds st.rest = lineEnds text ∧ st.fin = fin := by
  induction h with
  | init => exact ⟨List.suffix_refl _, by simp [LexState.init], rfl⟩
  | call st st' lval lval' code _ hc ih =>
    have := lex_post hc
    exact ⟨this.adv.suffix.trans ih.1, by rw [this.adv.lines]; exact ih.2.1, this.adv.fin.trans ih.2.2⟩

theorem Spec.Tokens.length_le {u : Unicode} {adj : Bool} {t : Str} {toks : List (Int × Payload)}
    (h : Tokens u adj t toks) : toks.length ≤ t.length := by
  induction h with
  | nil => simp
  | cons adj t sp rest code p toks hs hl _ ih =>
    have := hs.suffix.length_le
    have := List.length_pos_iff.2 hl.ne_nil
    simp at *
    omega

theorem Spec.Lexeme.payload_inj {u : Unicode} {adj adj' : Bool} {sp rest sp' rest' : Str} {code code' : Int} {p p' : Payload}
    (h : Lexeme u adj sp rest code p) (h' : Lexeme u adj' sp' rest' code' p') (he : p.apply {} = p'.apply {}) : p = p' := by
  have key : ∀ {adj sp rest code p}, Lexeme u adj sp rest code p →
      p = .none ∨ (∃ c w, p = .name (c :: w)) ∨ ∃ c w n, p = .number (c :: w) n := by
    intro adj sp rest code p h
    cases h with
    | exponent => exact Or.inl rfl
    | keyword => exact Or.inl rfl
    | typeReference => exact Or.inr (Or.inl ⟨_, _, rfl⟩)
    | identifier => exact Or.inr (Or.inl ⟨_, _, rfl⟩)
    | number _ hne =>
      cases sp with
      | nil => contradiction
      | cons c w => exact Or.inr (Or.inr ⟨_, _, _, rfl⟩)
    | symbol => exact Or.inl rfl
  rcases key h with rfl | ⟨c, w, rfl⟩ | ⟨c, w, n, rfl⟩ <;>
    rcases key h' with rfl | ⟨c', w', rfl⟩ | ⟨c', w', n', rfl⟩ <;>
    simp [Payload.apply] at he ⊢
  · exact he
  · exact ⟨he.1, by omega⟩

/-- Token sequences are unique. -/
theorem Spec.Tokens.det {u : Unicode} {adj : Bool} {t : Str} {a b : List (Int × Payload)}
    (h : Tokens u adj t a) (h' : Tokens u adj t b) : a = b := by
  induction h generalizing b with
  | nil adj t hs =>
    obtain ⟨_, h1, _, _⟩ := Delivers.lex_nil (st := { rest := t, fin := .eof, lastWasNumber := adj }) ⟨rfl, .nil _ _ hs⟩ {}
    cases b with
    | nil => rfl
    | cons x b =>
      obtain ⟨h2, _, _, h3, _⟩ := Delivers.lex_cons (st := { rest := t, fin := .eof, lastWasNumber := adj }) ⟨rfl, h'⟩ {}
      rw [h1] at h3
      simp only [Option.some.injEq, Prod.mk.injEq] at h3
      omega
  | cons adj t sp rest code p toks hs hl ht ih =>
    generalize hbb : b = b' at h'
    cases h' with
    | nil _ _ hs' =>
      obtain ⟨_, h1, _, _⟩ := Delivers.lex_nil (st := { rest := t, fin := .eof, lastWasNumber := adj }) ⟨rfl, .nil _ _ hs'⟩ {}
      obtain ⟨h2, _, _, h3, _⟩ := Delivers.lex_cons (st := { rest := t, fin := .eof, lastWasNumber := adj })
        ⟨rfl, .cons _ _ _ _ _ _ _ hs hl ht⟩ {}
      rw [h1] at h3
      simp only [Option.some.injEq, Prod.mk.injEq] at h3
      omega
    | cons _ _ sp' rest' code' p' toks' hs' hl' ht' =>
      rw [← adjAfter_eq hs] at hl
      rw [← adjAfter_eq hs'] at hl'
      have e1 := lex_complete (st := { rest := t, fin := .eof, lastWasNumber := adj }) {} rfl hs hl
      have e2 := lex_complete (st := { rest := t, fin := .eof, lastWasNumber := adj }) {} rfl hs' hl'
      rw [e1] at e2
      simp only [Option.some.injEq, Prod.mk.injEq, LexState.after, LexState.at, LexState.mk.injEq, true_and] at e2
      obtain ⟨rfl, hp, rfl, _⟩ := e2
      rw [ih ht', hl.payload_inj hl' hp]

theorem Spec.SkipTo.of_noSkip {t r : Str} (hn : NoSkip t) (h : SkipTo t r) : r = t := by
  cases h with
  | done => rfl
  | white c t r hw _ => exact absurd hw (hn.1 c rfl)
  | line t m r _ _ _ => exact absurd ⟨_, rfl⟩ hn.2.1
  | line3 t r _ => exact absurd ⟨_, rfl⟩ hn.2.1
  | block t m r _ _ _ => exact absurd ⟨_, rfl⟩ hn.2.2
  | blockSlash t r _ => exact absurd ⟨_, rfl⟩ hn.2.2
  | blockOpen t _ _ => exact absurd ⟨_, rfl⟩ hn.2.2

theorem maximal_unique {p : Char → Prop} : ∀ {a b r s : Str}, (∀ c ∈ a, p c) → (∀ c ∈ b, p c) →
    (∀ c, r.head? = some c → ¬ p c) → (∀ c, s.head? = some c → ¬ p c) → a ++ r = b ++ s → a = b ∧ r = s := by
  intro a
  induction a with
  | nil =>
    intro b r s _ hb hr hs he
    cases b with
    | nil => exact ⟨rfl, by simpa using he⟩
    | cons x b =>
      simp only [List.nil_append, List.cons_append] at he
      exact absurd (hb x (by simp)) (hr x (by simp [he]))
  | cons x a ih =>
    intro b r s ha hb hr hs he
    cases b with
    | nil =>
      simp only [List.nil_append, List.cons_append] at he
      exact absurd (ha x (by simp)) (hs x (by simp [← he]))
    | cons y b =>
      simp only [List.cons_append, List.cons.injEq] at he
      obtain ⟨rfl, he⟩ := he
      obtain ⟨rfl, rfl⟩ := ih (fun c hc => ha c (by simp [hc])) (fun c hc => hb c (by simp [hc])) hr hs he
      exact ⟨rfl, rfl⟩

end Asn1go
