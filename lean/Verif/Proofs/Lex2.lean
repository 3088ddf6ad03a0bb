import Verif.Proofs.Lexer

/-! Words, numbers, symbols. -/

namespace Asn1go

open Spec

theorem isIdentifierChar_iff (u : Unicode) (c : Char) : isIdentifierChar u c = true ↔ WordChar u c := by
  simp [isIdentifierChar, WordChar, or_assoc]

theorem not_wordChar_of_white (u : Unicode) {c : Char} (h : isWhitespace c = true) :
    isIdentifierChar u c = false := by
  have hc : c.toNat < 128 := by simp [isWhitespace] at h; omega
  have h1 : c ≠ '-' := by rintro rfl; exact absurd h (by decide)
  simp only [isIdentifierChar, u.letter_ascii c hc, u.digit_ascii c hc]
  simp [isWhitespace] at h
  simp [h1]
  omega

theorem not_newline_of_wordChar (u : Unicode) {c : Char} (h : isIdentifierChar u c = true) :
    isNewline c = false := by
  cases hn : isNewline c
  · rfl
  · have := not_wordChar_of_white u (isNewline_white hn)
    simp [h] at this

theorem wordStop_eq (u : Unicode) (c : Char) :
    (isWhitespace c || !isIdentifierChar u c) = !isIdentifierChar u c := by
  cases h : isWhitespace c
  · rfl
  · simp [not_wordChar_of_white u h]

theorem digit_wordChar (u : Unicode) {c : Char} (h : u.isDigit c = true) : isIdentifierChar u c = true := by
  simp [isIdentifierChar, h]

theorem letter_wordChar (u : Unicode) {c : Char} (h : u.isLetter c = true) : isIdentifierChar u c = true := by
  simp [isIdentifierChar, h]

/-- No two hyphens in a row in `lastR :: w`. -/
def noHH : Char → Str → Bool
  | _, [] => true
  | l, c :: cs => !(l == '-' && c == '-') && noHH c cs

theorem noHH_iff (l : Char) (w : Str) : noHH l w = true ↔ ¬ (['-', '-'] <:+: (l :: w)) := by
  induction w generalizing l with
  | nil =>
    simp only [noHH, true_iff]
    rintro ⟨a, b, h⟩
    have := congrArg List.length h
    simp at this
    omega
  | cons c cs ih =>
    simp only [noHH, Bool.and_eq_true, ih]
    constructor
    · rintro ⟨h1, h2⟩ h
      rcases List.infix_cons_iff.1 h with h | h
      · obtain ⟨b, hb⟩ := h
        simp at hb
        obtain ⟨rfl, rfl, _⟩ := hb
        simp at h1
      · exact h2 h
    · intro h
      refine ⟨?_, fun h' => h (List.infix_cons_iff.2 (Or.inr h'))⟩
      by_cases hl : l = '-' ∧ c = '-'
      · obtain ⟨rfl, rfl⟩ := hl
        exact absurd (List.infix_cons_iff.2 (Or.inl ⟨cs, rfl⟩)) h
      · simp; exact Decidable.not_and_iff_or_not.1 hl

theorem consumeWordGo_ok (u : Unicode) (t : Str) : ∀ acc lastR ln label rest ln',
    consumeWordGo u acc lastR t ln = (.ok label, rest, ln') →
    ∃ w, label = acc ++ w ∧ t = w ++ rest ∧ Maximal (WordChar u) w rest ∧ label.getLast? ≠ some '-' ∧
      noHH lastR w = true ∧ ln' = ln := by
  induction t with
  | nil =>
    intro acc lastR ln label rest ln' h
    simp only [consumeWordGo] at h
    split at h
    · simp at h
    · rename_i hl
      simp only [Prod.mk.injEq, Except.ok.injEq] at h
      obtain ⟨rfl, rfl, rfl⟩ := h
      exact ⟨[], by simp, rfl, ⟨by simp, by simp⟩, by simpa using hl, rfl, rfl⟩
  | cons c cs ih =>
    intro acc lastR ln label rest ln' h
    simp only [consumeWordGo, wordStop_eq] at h
    split at h
    · rename_i hc
      split at h
      · simp at h
      · rename_i hl
        simp only [Prod.mk.injEq, Except.ok.injEq] at h
        obtain ⟨rfl, rfl, rfl⟩ := h
        refine ⟨[], by simp, rfl, ⟨by simp, ?_⟩, by simpa using hl, rfl, ?_⟩
        · intro c' hc'
          simp at hc'
          subst hc'
          intro hw
          simp [(isIdentifierChar_iff u _).2 hw] at hc
        · split <;> omega
    · rename_i hc
      have hc : isIdentifierChar u c = true := by simpa using hc
      split at h
      · simp at h
      · rename_i hh
        obtain ⟨w, h1, h2, h3, h4, h5, h6⟩ := ih _ _ _ _ _ _ h
        have hn := not_newline_of_wordChar u hc
        refine ⟨c :: w, by simp [h1], by simp [h2], ⟨?_, h3.2⟩, h4, ?_, ?_⟩
        · intro c' hc'
          rcases List.mem_cons.1 hc' with rfl | hc'
          · exact (isIdentifierChar_iff u _).1 hc
          · exact h3.1 _ hc'
        · simp only [noHH, h5, Bool.and_true]
          simp at hh ⊢; exact Decidable.not_and_iff_or_not.1 (fun h => hh h.1 h.2)
        · simpa [hn] using h6

theorem consumeWordGo_of (u : Unicode) (w rest : Str) : ∀ acc lastR ln,
    Maximal (WordChar u) w rest → (acc ++ w).getLast? ≠ some '-' → noHH lastR w = true →
    consumeWordGo u acc lastR (w ++ rest) ln = (.ok (acc ++ w), rest, ln) := by
  induction w with
  | nil =>
    intro acc lastR ln hm hl _
    cases rest with
    | nil => simp at hl; simp [consumeWordGo, hl]
    | cons c cs =>
      have hc : isIdentifierChar u c = false := by
        cases h : isIdentifierChar u c
        · rfl
        · exact absurd ((isIdentifierChar_iff u c).1 h) (hm.2 c rfl)
      simp at hl
      simp only [List.nil_append, consumeWordGo, hc]
      simp [hl]
      split <;> omega
  | cons c cs ih =>
    intro acc lastR ln hm hl hh
    have hc : isIdentifierChar u c = true := (isIdentifierChar_iff u c).2 (hm.1 c (by simp))
    have hn := not_newline_of_wordChar u hc
    simp only [noHH, Bool.and_eq_true] at hh
    rw [List.cons_append, consumeWordGo, wordStop_eq]
    simp only [hc, hn]
    simp only [Bool.not_true, Bool.false_eq_true, if_false]
    rw [if_neg (by have := hh.1; revert this; cases (lastR == '-' && c == '-') <;> simp)]
    rw [ih (acc ++ [c]) c ln ⟨fun x hx => hm.1 x (by simp [hx]), hm.2⟩ (by simpa using hl) hh.2]
    simp

theorem consumeWordGo_lines (u : Unicode) (t : Str) : ∀ acc lastR ln res rest ln',
    consumeWordGo u acc lastR t ln = (res, rest, ln') →
    ln' + (lineEnds rest : Int) = ln + lineEnds t ∧ rest.length ≤ t.length ∧ rest <:+ t := by
  induction t with
  | nil =>
    intro acc lastR ln res rest ln' h
    simp only [consumeWordGo] at h
    split at h <;> (simp only [Prod.mk.injEq] at h; obtain ⟨_, rfl, rfl⟩ := h; simp)
  | cons c cs ih =>
    intro acc lastR ln res rest ln' h
    simp only [consumeWordGo] at h
    rw [lineEnds_cons]
    split at h
    · split at h
      · simp only [Prod.mk.injEq] at h; obtain ⟨_, rfl, rfl⟩ := h
        refine ⟨?_, by simp, List.suffix_cons _ _⟩
        split <;> simp <;> omega
      · simp only [Prod.mk.injEq] at h; obtain ⟨_, rfl, rfl⟩ := h
        refine ⟨?_, by simp, List.suffix_refl _⟩
        rw [lineEnds_cons]
        split <;> simp <;> omega
    · split at h
      · simp only [Prod.mk.injEq] at h; obtain ⟨_, rfl, rfl⟩ := h
        refine ⟨?_, by simp, List.suffix_cons _ _⟩
        split <;> simp <;> omega
      · obtain ⟨h1, h2, h3⟩ := ih _ _ _ _ _ _ h
        refine ⟨?_, by simp; omega, h3.trans (List.suffix_cons _ _)⟩
        rw [h1]; split <;> simp <;> omega

theorem digit_not_newline (u : Unicode) {c : Char} (h : u.isDigit c = true) : isNewline c = false :=
  not_newline_of_wordChar u (digit_wordChar u h)

theorem consumeNumberGo_spec (u : Unicode) (t : Str) : ∀ acc ln repr rest ln',
    consumeNumberGo u acc t ln = (repr, rest, ln') →
    ∃ w, repr = acc ++ w ∧ t = w ++ rest ∧ Maximal (fun c => u.isDigit c = true) w rest ∧ ln' = ln := by
  induction t with
  | nil =>
    intro acc ln repr rest ln' h
    simp only [consumeNumberGo, Prod.mk.injEq] at h
    obtain ⟨rfl, rfl, rfl⟩ := h
    exact ⟨[], by simp, rfl, ⟨by simp, by simp⟩, rfl⟩
  | cons c cs ih =>
    intro acc ln repr rest ln' h
    simp only [consumeNumberGo] at h
    split at h
    · rename_i hc
      simp only [Prod.mk.injEq] at h
      obtain ⟨rfl, rfl, rfl⟩ := h
      refine ⟨[], by simp, rfl, ⟨by simp, ?_⟩, ?_⟩
      · intro c' hc'
        simp at hc'
        subst hc'
        simpa using hc
      · split <;> omega
    · rename_i hc
      have hc : u.isDigit c = true := by simpa using hc
      obtain ⟨w, h1, h2, h3, h4⟩ := ih _ _ _ _ _ h
      refine ⟨c :: w, by simp [h1], by simp [h2], ⟨?_, h3.2⟩, ?_⟩
      · intro c' hc'
        rcases List.mem_cons.1 hc' with rfl | hc'
        · exact hc
        · exact h3.1 _ hc'
      · simpa [digit_not_newline u hc] using h4

theorem consumeNumberGo_of (u : Unicode) (w rest : Str) : ∀ acc ln,
    Maximal (fun c => u.isDigit c = true) w rest →
    consumeNumberGo u acc (w ++ rest) ln = (acc ++ w, rest, ln) := by
  induction w with
  | nil =>
    intro acc ln hm
    cases rest with
    | nil => simp [consumeNumberGo]
    | cons c cs =>
      have hc : u.isDigit c = false := by simpa using hm.2 c rfl
      simp only [List.nil_append, consumeNumberGo, hc]
      simp
      split <;> omega
  | cons c cs ih =>
    intro acc ln hm
    have hc : u.isDigit c = true := hm.1 c (by simp)
    simp only [List.cons_append, consumeNumberGo, hc, digit_not_newline u hc]
    simp only [Bool.not_true, Bool.false_eq_true, if_false]
    rw [ih (acc ++ [c]) ln ⟨fun x hx => hm.1 x (by simp [hx]), hm.2⟩]
    simp

theorem decValue_eq (s : Str) : ∀ acc, decValue acc s = acc * 10 ^ s.length + decimal s := by
  induction s with
  | nil =>
    intro acc
    rw [decValue, List.foldl_nil, decimal, List.length_nil, Nat.pow_zero, Nat.mul_one, Nat.add_zero]
  | cons c cs ih =>
    intro acc
    have ih' := ih (acc * 10 + (c.toNat - 48))
    rw [decValue] at ih'
    rw [decValue, List.foldl_cons, ih', decimal, List.length_cons, Nat.pow_succ, Nat.add_mul, Nat.add_assoc,
      Nat.mul_assoc, Nat.mul_comm 10]

theorem atoi_eq_some (s : Str) (i : Int) : atoi s = some i ↔
    s ≠ [] ∧ (∀ c ∈ s, 48 ≤ c.toNat ∧ c.toNat ≤ 57) ∧ decimal s < 9223372036854775808 ∧ i = (decimal s : Int) := by
  have hall : (s.all (fun c => 48 ≤ c.toNat && c.toNat ≤ 57) && !s.isEmpty) = true ↔
      (∀ c ∈ s, 48 ≤ c.toNat ∧ c.toNat ≤ 57) ∧ s ≠ [] := by simp
  have hd : decValue 0 s = decimal s := by rw [decValue_eq]; simp
  unfold atoi
  rw [hd]
  generalize decimal s = d
  generalize 9223372036854775808 = m
  by_cases h : (s.all (fun c => 48 ≤ c.toNat && c.toNat ≤ 57) && !s.isEmpty) = true
  · rw [if_pos h]
    have h' := hall.1 h
    by_cases hv : d < m
    · simp [hv]
      exact ⟨fun e => ⟨h'.2, h'.1, e.symm⟩, fun e => e.2.2.symm⟩
    · simp [hv]
  · rw [if_neg h]
    simp only [reduceCtorEq, false_iff]
    rintro ⟨h1, h2, _⟩
    exact h (hall.2 ⟨h2, h1⟩)

end Asn1go
