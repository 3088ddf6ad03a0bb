import Verif.Proofs.Shape
import Verif.Proofs.Lex6

/-! The tokens of a text can be computed. -/

namespace Asn1go.LR

open Spec

/-- The payload of a token, from the fields the lexer filled in. -/
def payloadOf (code : Int) (l : LVal) : Payload :=
  if code = Tok.TYPEORMODULEREFERENCE ∨ code = Tok.VALUEIDENTIFIER then .name l.name
  else if code = Tok.NUMBER then .number l.numberRepr l.number.toNat
  else .none

theorem payloadOf_apply {u : Unicode} {adj : Bool} {sp rest : Str} {code : Int} {p : Payload} (h : Lexeme u adj sp rest code p) (l : LVal) :
    payloadOf code (p.apply l) = p := by
  unfold payloadOf
  split
  · rename_i hc
    obtain ⟨w, rfl⟩ := (lexeme_payload h).1 hc
    rfl
  · rename_i hc
    split
    · rename_i hn
      obtain ⟨w, n, rfl⟩ := (lexeme_payload h).2 hn
      simp [Payload.apply]
    · rename_i hn
      rcases lexeme_plain h with h | h | h | h
      · exact absurd (.inl h) hc
      · exact absurd (.inr h) hc
      · exact absurd h hn
      · exact h.symm

/-- All tokens up to the end of input. -/
def lexAll (u : Unicode) : Nat → LexState → Option (List Token)
  | 0, _ => none
  | n + 1, st =>
    match lex u st {} with
    | none => none
    | some (code, lval, st') =>
      if st'.err.isSome then none
      else if code = 0 then some []
      else (lexAll u n st').map fun l => (code, payloadOf code lval) :: l

/-- The tokens of a text. -/
def tokenize (u : Unicode) (text : Str) : Option (List Token) := lexAll u (text.length + 1) (LexState.init text .eof)

theorem lexAll_complete {u : Unicode} : ∀ (toks : List Token) {st : LexState} {n : Nat}, Delivers u st toks → st.err = none →
    toks.length < n → lexAll u n st = some toks
  | _, _, 0, _, _, h => by omega
  | [], st, n + 1, h, he, _ => by
    obtain ⟨st', h1, h2, h3⟩ := h.lex_nil {}
    rw [lexAll, h1]
    simp [h3, he]
  | (code, p) :: toks, st, n + 1, h, he, hn => by
    have hm : ∃ adj sp rest, Lexeme u adj sp rest code p := tokens_mem h.tokens (code, p) (by simp)
    obtain ⟨adj, sp, rest, hx⟩ := hm
    obtain ⟨hc, _, st', h1, h2, h3⟩ := h.lex_cons {}
    rw [lexAll, h1]
    simp only [List.length_cons] at hn
    simp only [h3, he, Option.isSome_none, Bool.false_eq_true, if_false]
    rw [if_neg (by omega), lexAll_complete toks h2 (h3.trans he) (by omega), payloadOf_apply hx]
    rfl

theorem lexAll_sound {u : Unicode} : ∀ (n : Nat) {st : LexState} {toks : List Token}, lexAll u n st = some toks →
    Tokens u st.lastWasNumber st.rest toks
  | 0, _, _, h => by simp [lexAll] at h
  | n + 1, st, toks, h => by
    rw [lexAll] at h
    cases hl : lex u st {} with
    | none => rw [hl] at h; cases h
    | some r =>
      obtain ⟨code, lval, st'⟩ := r
      rw [hl] at h
      simp only at h
      split at h
      · cases h
      · rename_i he
        have he : st'.err = none := by simpa using he
        rcases (lex_delivers hl he).2 with ⟨rfl, _, _, ht⟩ | ⟨hc, _, p, rfl, ⟨_, _, _, hx⟩, ht⟩
        · simp at h; subst h; exact ht
        · rw [if_neg (by omega)] at h
          cases hr : lexAll u n st' with
          | none => rw [hr] at h; cases h
          | some l =>
            rw [hr] at h
            simp only [Option.map_some, Option.some.injEq] at h
            subst h
            rw [payloadOf_apply hx]
            exact ht l (lexAll_sound n hr)

/-- `tokenize` decides what the tokens of a text are. -/
theorem tokenize_iff (u : Unicode) (text : Str) (toks : List Token) : tokenize u text = some toks ↔ Tokens u false text toks := by
  constructor
  · intro h; exact lexAll_sound _ h
  · intro h
    refine lexAll_complete toks ⟨rfl, h⟩ rfl ?_
    have := h.length_le
    show toks.length < text.length + 1
    omega

end Asn1go.LR
