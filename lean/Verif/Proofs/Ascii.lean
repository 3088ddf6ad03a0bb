import Verif.Proofs.Lex4
import Verif.Proofs.Names

/-! Texts of ASCII characters have the same tokens whatever the Unicode tables. -/

namespace Asn1go

open Spec

/-- Only ASCII characters. -/
def AsciiText (s : Str) : Prop := ∀ c ∈ s, c.toNat < 128

theorem wordChar_ascii {u u' : Unicode} {c : Char} (hc : c.toNat < 128) : WordChar u c ↔ WordChar u' c := by
  unfold WordChar
  rw [u.letter_ascii c hc, u.digit_ascii c hc, u'.letter_ascii c hc, u'.digit_ascii c hc]

theorem word_ascii {u u' : Unicode} {w : Str} (hw : AsciiText w) (h : Word u w) : Word u' w := by
  obtain ⟨⟨c, cs, rfl, hc⟩, h2, h3, h4⟩ := h
  refine ⟨⟨c, cs, rfl, ?_⟩, fun x hx => (wordChar_ascii (hw x hx)).1 (h2 x hx), h3, h4⟩
  rw [u'.letter_ascii c (hw c (by simp)), ← u.letter_ascii c (hw c (by simp))]
  exact hc

theorem maximal_ascii {u u' : Unicode} {w rest : Str} (hw : AsciiText w) (hr : AsciiText rest) (h : Maximal (WordChar u) w rest) :
    Maximal (WordChar u') w rest := by
  refine ⟨fun c hc => (wordChar_ascii (hw c hc)).1 (h.1 c hc), fun c hc hn => h.2 c hc ((wordChar_ascii (hr c ?_)).1 hn)⟩
  cases rest with
  | nil => simp at hc
  | cons d l => simp at hc; subst hc; simp

theorem upper_same {u u' : Unicode} {c : Char} (hc : c.toNat < 128) : u.isUpper c = u'.isUpper c := by
  rw [u.upper_ascii c hc, u'.upper_ascii c hc]

theorem lexeme_ascii {u u' : Unicode} {adj : Bool} {sp rest : Str} {code : Int} {p : Payload} (hs : AsciiText sp) (hr : AsciiText rest)
    (h : Lexeme u adj sp rest code p) : Lexeme u' adj sp rest code p := by
  cases h with
  | exponent c _ h1 h2 => exact .exponent c _ h1 h2
  | keyword w _ _ h1 h2 h3 h4 => exact .keyword _ _ _ h1 (word_ascii hs h2) (maximal_ascii hs hr h3) h4
  | typeReference c w _ h1 h2 h3 h4 h5 =>
    exact .typeReference _ _ _ h1 (word_ascii hs h2) (by rw [← upper_same (hs c (by simp))]; exact h3) (maximal_ascii hs hr h4) h5
  | identifier c w _ h1 h2 h3 h4 =>
    exact .identifier _ _ _ h1 (word_ascii hs h2) (by rw [← upper_same (hs c (by simp))]; exact h3) (maximal_ascii hs hr h4)
  | number w _ h1 h2 h3 h4 =>
    refine .number _ _ h1 h2 (fun c hc => ?_) h4
    have : c.toNat < 128 := by
      cases rest with
      | nil => simp at hc
      | cons d l => simp at hc; subst hc; exact hr _ (by simp)
    rw [u'.digit_ascii c this, ← u.digit_ascii c this]
    exact h3 c hc
  | symbol w _ _ h1 h2 h3 => exact .symbol _ _ _ h1 h2 h3

theorem tokens_ascii {u u' : Unicode} {adj : Bool} {t : Str} {toks : List Token} (h : Tokens u adj t toks) (ht : AsciiText t) :
    Tokens u' adj t toks := by
  induction h with
  | nil adj t h => exact .nil adj t h
  | cons adj t sp rest code p toks h1 h2 _ ih =>
    have hsr : AsciiText (sp ++ rest) := fun c hc => ht c (h1.suffix.subset hc)
    have hs : AsciiText sp := fun c hc => hsr c (by simp [hc])
    have hr : AsciiText rest := fun c hc => hsr c (by simp [hc])
    exact .cons adj t sp rest code p toks h1 (lexeme_ascii hs hr h2) (ih hr)

theorem ascii_word {w : Str} (h : Word asciiUnicode w) : AsciiText w := by
  intro c hc
  rcases h.chars c hc with h | h | rfl
  · simp [asciiUnicode] at h; omega
  · simp [asciiUnicode] at h; omega
  · decide

end Asn1go
