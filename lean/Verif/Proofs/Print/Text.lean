import Verif.Proofs.Print.Shape
import Verif.Proofs.Codegen.Numbers
import Verif.Props.Lexer

/-! Text written consists of the tokens written. -/

namespace Asn1go.Print

open Asn1go Spec Spec.Notation Spec.Print Props

theorem spelled_printable (u : Unicode) {code : Int} (h : code ∈ spelled) : Printable u (spelling (kw code)) code .none := by
  have : ∀ code ∈ spelled, (spelling (kw code), code) ∈ reservedWords ∨ (spelling (kw code), code) ∈ symbols := by decide +kernel
  rcases this code h with h | h
  · exact .keyword _ _ h
  · exact .symbol _ _ h

theorem spelled_codes : Tok.EXPONENT ∉ spelled ∧ Tok.NUMBER ∉ spelled := by decide +kernel

theorem writable_printable {u : Unicode} {t : Token} (h : Writable u t) : t.2 = .none ∨
    (Printable u (spelling t) t.1 t.2 ∧ t.1 ≠ Tok.EXPONENT) := by
  cases h with
  | upper c w h1 h2 h3 => exact .inr ⟨.typeReference _ _ h1 h2 h3, by show Tok.TYPEORMODULEREFERENCE ≠ _; decide⟩
  | lower c w h1 h2 => exact .inr ⟨.identifier _ _ h1 h2, by show Tok.VALUEIDENTIFIER ≠ _; decide⟩
  | number n hn =>
    right
    obtain ⟨h1, h2, h3⟩ := CG.natStr_spec n
    refine ⟨?_, by show Tok.NUMBER ≠ _; decide⟩
    have := Printable.number (u := u) (natStr n) h2 (fun c hc => h3 c hc) (by rw [h1]; exact hn)
    rw [h1] at this
    exact this
  | word => exact .inl rfl

theorem write_head {u : Unicode} {after : Bool} {l : List Token} (h : Shape after l) (hw : ∀ t ∈ l, Writable u t) (c : Char)
    (hc : (write l).head? = some c) : c = ' ' ∨ (c = 'E' ∧ after = true) := by
  cases l with
  | nil => simp [write] at hc
  | cons t l =>
    simp only [write] at hc
    split at hc
    · next he =>
      simp only [List.head?_cons, Option.some.injEq] at hc
      subst hc
      rcases writable_printable (hw t (by simp)) with h0 | h0
      · rcases h.1 h0 with h1 | h1
        · rw [he] at h1
          exact absurd h1 spelled_codes.1
        · exact .inr ⟨rfl, h1.2⟩
      · exact absurd he h0.2
    · simp only [List.head?_cons, Option.some.injEq] at hc
      exact .inl hc.symm

theorem write_tokens (u : Unicode) : ∀ (l : List Token) (after : Bool), Shape after l → (∀ t ∈ l, Writable u t) → Tokens u after (write l) l
  | [], _, _, _ => .nil _ _ (.done _)
  | (code, p) :: l, after, h, hw => by
    have ih := write_tokens u l _ h.2 (fun t ht => hw t (by simp [ht]))
    have hhead := write_head h.2 (fun t ht => hw t (by simp [ht]))
    have hE : u.isDigit 'E' = false := by rw [u.digit_ascii 'E' (by decide)]; decide
    have hB : u.isDigit ' ' = false := by rw [u.digit_ascii ' ' (by decide)]; decide
    by_cases he : code = Tok.EXPONENT
    · subst he
      have hp : p = .none ∧ after = true := by
        rcases writable_printable (hw _ List.mem_cons_self) with h0 | h0
        · rcases h.1 h0 with h1 | h1
          · exact absurd h1 spelled_codes.1
          · exact ⟨h0, h1.2⟩
        · exact absurd rfl h0.2
      obtain ⟨rfl, rfl⟩ := hp
      exact .cons _ _ ['E'] _ _ _ _ (.done _) (.exponent _ _ (by simp [write]) (.inr rfl)) ih
    · have hpr : Printable u (spelling (code, p)) code p := by
        rcases writable_printable (hw _ List.mem_cons_self) with h0 | h0
        · simp only at h0
          subst h0
          rcases h.1 rfl with h1 | h1
          · exact spelled_printable u h1
          · exact absurd h1.1 he
        · exact h0.1
      have hlex : Lexeme u false (spelling (code, p)) (write l) code p := by
        by_cases hn : code = Tok.NUMBER
        · subst hn
          generalize spelling (Tok.NUMBER, p) = w at hpr ⊢
          generalize hc : Tok.NUMBER = code at hpr
          cases hpr with
          | keyword _ _ hm => exact absurd (List.mem_map.2 ⟨_, List.mem_append_left _ hm, hc.symm⟩) spelled_codes.2
          | symbol _ _ hm => exact absurd (List.mem_map.2 ⟨_, List.mem_append_right _ hm, hc.symm⟩) spelled_codes.2
          | typeReference => exact absurd hc (by decide)
          | identifier => exact absurd hc (by decide)
          | number w h1 h2 h3 =>
            refine .number _ _ h1 h2 (fun c hc => ?_) h3
            rcases hhead c hc with h | ⟨h, _⟩ <;> subst h
            · exact hB
            · exact hE
        · refine hpr.lexeme _ (fun c hc => ?_)
          rcases hhead c hc with h | ⟨_, h⟩
          · subst h; decide
          · exact absurd (by simpa using h) hn
      have e : write ((code, p) :: l) = ' ' :: (spelling (code, p) ++ write l) := by simp [write, he]
      rw [e]
      refine .cons _ _ (spelling (code, p)) _ _ _ _ (.white _ _ _ (by decide) (.done _)) ?_ ih
      have : decide (' ' :: (spelling (code, p) ++ write l) = spelling (code, p) ++ write l) = false := by simp
      rw [this, Bool.and_false]
      exact hlex

end Asn1go.Print
