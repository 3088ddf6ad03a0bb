import Verif.Spec.Utf8
import Mathlib.Data.List.Infix

/-! UTF-8 decoding against the encoding. -/

namespace Asn1go

open Spec

theorem ofNat_toNat_of_lt {n : Nat} (h : n < 256) : (UInt8.ofNat n).toNat = n := by
  simp [UInt8.toNat_ofNat', Nat.mod_eq_of_lt h]

theorem char_valid (c : Char) : c.toNat < 0xD800 ∨ (0xDFFF < c.toNat ∧ c.toNat < 0x110000) := by
  have := c.valid
  exact this

theorem utf8_cases (c : Char) :
    (c.toNat < 0x80 ∧ (utf8Bytes c).map UInt8.toNat = [c.toNat]) ∨
    (0x80 ≤ c.toNat ∧ c.toNat < 0x800 ∧ (utf8Bytes c).map UInt8.toNat = [0xC0 + c.toNat / 64, 0x80 + c.toNat % 64]) ∨
    (0x800 ≤ c.toNat ∧ c.toNat < 0x10000 ∧
      (utf8Bytes c).map UInt8.toNat = [0xE0 + c.toNat / 4096, 0x80 + c.toNat / 64 % 64, 0x80 + c.toNat % 64]) ∨
    (0x10000 ≤ c.toNat ∧ c.toNat < 0x110000 ∧
      (utf8Bytes c).map UInt8.toNat = [0xF0 + c.toNat / 262144, 0x80 + c.toNat / 4096 % 64, 0x80 + c.toNat / 64 % 64, 0x80 + c.toNat % 64]) := by
  have hv := char_valid c
  rw [utf8Bytes]
  by_cases h1 : c.toNat < 0x80
  · left; simp only [h1, if_true, List.map_cons, List.map_nil]; exact ⟨trivial, by rw [ofNat_toNat_of_lt (by omega)]⟩
  · by_cases h2 : c.toNat < 0x800
    · right; left
      rw [if_neg h1, if_pos h2]
      refine ⟨by omega, h2, ?_⟩
      simp only [List.map_cons, List.map_nil]
      rw [ofNat_toNat_of_lt (by omega), ofNat_toNat_of_lt (by omega)]
    · by_cases h3 : c.toNat < 0x10000
      · right; right; left
        rw [if_neg h1, if_neg h2, if_pos h3]
        refine ⟨by omega, h3, ?_⟩
        simp only [List.map_cons, List.map_nil]
        rw [ofNat_toNat_of_lt (by omega), ofNat_toNat_of_lt (by omega), ofNat_toNat_of_lt (by omega)]
      · right; right; right
        rw [if_neg h1, if_neg h2, if_neg h3]
        refine ⟨by omega, by omega, ?_⟩
        simp only [List.map_cons, List.map_nil]
        rw [ofNat_toNat_of_lt (by omega), ofNat_toNat_of_lt (by omega), ofNat_toNat_of_lt (by omega), ofNat_toNat_of_lt (by omega)]

theorem char_ofNat_eq (c : Char) {n : Nat} (h : n = c.toNat) : Char.ofNat n = c := by
  subst h; exact Char.ofNat_toNat c

theorem decode_char (c : Char) (b : Nat) (l rest : List Nat) (h : (utf8Bytes c).map UInt8.toNat = b :: l) :
    decodeRune b (l ++ rest) = (c, l.length + 1) := by
  have hv := char_valid c
  rcases utf8_cases c with ⟨h1, e⟩ | ⟨h1, h2, e⟩ | ⟨h1, h2, e⟩ | ⟨h1, h2, e⟩
  · rw [e] at h
    cases h
    have : sequenceStart c.toNat = some (1, 0, 0) := by rw [sequenceStart, if_pos (by omega)]
    simp [decodeRune, this]
  · rw [e] at h
    cases h
    have : sequenceStart (0xC0 + c.toNat / 64) = some (2, 0x80, 0xBF) := by
      rw [sequenceStart, if_neg (by omega), if_neg (by omega), if_pos (by omega)]
    have r : inRange 0x80 0xBF (0x80 + c.toNat % 64) = true := by simp [inRange]; omega
    simp only [decodeRune, this, List.cons_append, List.nil_append, r]
    simp
    exact char_ofNat_eq c (by omega)
  · rw [e] at h
    cases h
    have r2 : inRange 0x80 0xBF (0x80 + c.toNat % 64) = true := by simp [inRange]; omega
    have : ∃ lo hi, sequenceStart (0xE0 + c.toNat / 4096) = some (3, lo, hi) ∧ inRange lo hi (0x80 + c.toNat / 64 % 64) = true := by
      by_cases a : c.toNat / 4096 = 0
      · refine ⟨0xA0, 0xBF, ?_, ?_⟩
        · rw [a]; decide
        · simp [inRange]; omega
      · by_cases a2 : c.toNat / 4096 = 13
        · refine ⟨0x80, 0x9F, ?_, ?_⟩
          · rw [a2]; decide
          · simp [inRange]; omega
        · refine ⟨0x80, 0xBF, ?_, ?_⟩
          · by_cases a3 : c.toNat / 4096 ≤ 12
            · rw [sequenceStart, if_neg (by omega), if_neg (by omega), if_neg (by omega), if_neg (by omega), if_pos (by omega)]
            · rw [sequenceStart, if_neg (by omega), if_neg (by omega), if_neg (by omega), if_neg (by omega), if_neg (by omega),
                if_neg (by omega), if_pos (by omega)]
          · simp [inRange]; omega
    obtain ⟨lo, hi, s, r1⟩ := this
    simp only [decodeRune, s, List.cons_append, List.nil_append, r1, r2]
    simp
    exact char_ofNat_eq c (by omega)
  · rw [e] at h
    cases h
    have r2 : inRange 0x80 0xBF (0x80 + c.toNat % 64) = true := by simp [inRange]; omega
    have r3 : inRange 0x80 0xBF (0x80 + c.toNat / 64 % 64) = true := by simp [inRange]; omega
    have : ∃ lo hi, sequenceStart (0xF0 + c.toNat / 262144) = some (4, lo, hi) ∧ inRange lo hi (0x80 + c.toNat / 4096 % 64) = true := by
      have a0 : c.toNat / 262144 ≤ 4 := by omega
      by_cases a : c.toNat / 262144 = 0
      · refine ⟨0x90, 0xBF, ?_, ?_⟩
        · rw [a]; decide
        · simp [inRange]; omega
      · by_cases a2 : c.toNat / 262144 = 4
        · refine ⟨0x80, 0x8F, ?_, ?_⟩
          · rw [a2]; decide
          · simp [inRange]; omega
        · refine ⟨0x80, 0xBF, ?_, ?_⟩
          · have : c.toNat / 262144 = 1 ∨ c.toNat / 262144 = 2 ∨ c.toNat / 262144 = 3 := by omega
            rcases this with a | a | a <;> rw [a] <;> decide
          · simp [inRange]; omega
    obtain ⟨lo, hi, s, r1⟩ := this
    simp only [decodeRune, s, List.cons_append, List.nil_append, r1, r2, r3]
    simp
    exact char_ofNat_eq c (by omega)

theorem ofNat_toNat_char {n : Nat} (h : n < 0xD800 ∨ (0xDFFF < n ∧ n < 0x110000)) : (Char.ofNat n).toNat = n := by
  have v : n.isValidChar := by simpa [Nat.isValidChar] using h
  simp [Char.ofNat, v, Char.toNat, Char.ofNatAux]

/-- Either an encoded character, or an invalid byte. -/
theorem decode_cases (b : Nat) (rest : List Nat) (hb : b < 256) (_ : ∀ x ∈ rest, x < 256) :
    (∃ c l rest', rest = l ++ rest' ∧ (utf8Bytes c).map UInt8.toNat = b :: l) ∨ decodeRune b rest = (runeError, 1) := by
  have key : ∀ (c : Char) (l rest' : List Nat), (utf8Bytes c).map UInt8.toNat = b :: l → rest = l ++ rest' →
      (∃ c l rest', rest = l ++ rest' ∧ (utf8Bytes c).map UInt8.toNat = b :: l) ∨ decodeRune b rest = (runeError, 1) :=
    fun c l rest' h e => .inl ⟨c, l, rest', e, h⟩
  by_cases h0 : b ≤ 0x7F
  · refine key (Char.ofNat b) [] rest ?_ rfl
    have e := ofNat_toNat_char (n := b) (by omega)
    rw [utf8Bytes]; rw [e, if_pos (by omega)]
    simp only [List.map_cons, List.map_nil]; rw [ofNat_toNat_of_lt (by omega)]
  by_cases h1 : b ≤ 0xC1
  · right; simp [decodeRune, sequenceStart, h0, h1]
  by_cases h2 : b ≤ 0xDF
  · have s : sequenceStart b = some (2, 0x80, 0xBF) := by rw [sequenceStart, if_neg h0, if_neg h1, if_pos h2]
    match rest with
    | [] => right; simp [decodeRune, s]
    | b1 :: rest1 =>
      by_cases r : inRange 0x80 0xBF b1 = true
      · simp [inRange] at r
        refine key (Char.ofNat ((b % 32) * 64 + b1 % 64)) [b1] rest1 ?_ rfl
        have e := ofNat_toNat_char (n := (b % 32) * 64 + b1 % 64) (by omega)
        rw [utf8Bytes]; rw [e, if_neg (by omega), if_pos (by omega)]
        simp only [List.map_cons, List.map_nil]; rw [ofNat_toNat_of_lt (by omega), ofNat_toNat_of_lt (by omega)]
        congr 1
        · omega
        · congr 1; omega
      · right; simp [decodeRune, s, r]
  by_cases h3 : b ≤ 0xEF
  · have s : ∃ lo hi, sequenceStart b = some (3, lo, hi) ∧ ∀ b1, inRange lo hi b1 = true → 0x80 ≤ b1 ∧ b1 ≤ 0xBF ∧
        (b = 0xE0 → 0xA0 ≤ b1) ∧ (b = 0xED → b1 ≤ 0x9F) := by
      by_cases a : b ≤ 0xE0
      · refine ⟨0xA0, 0xBF, ?_, ?_⟩
        · rw [sequenceStart, if_neg h0, if_neg h1, if_neg h2, if_pos a]
        · intro b1 r; simp [inRange] at r; omega
      · by_cases a2 : b ≤ 0xEC
        · refine ⟨0x80, 0xBF, ?_, ?_⟩
          · rw [sequenceStart, if_neg h0, if_neg h1, if_neg h2, if_neg a, if_pos a2]
          · intro b1 r; simp [inRange] at r; omega
        · by_cases a3 : b ≤ 0xED
          · refine ⟨0x80, 0x9F, ?_, ?_⟩
            · rw [sequenceStart, if_neg h0, if_neg h1, if_neg h2, if_neg a, if_neg a2, if_pos a3]
            · intro b1 r; simp [inRange] at r; omega
          · refine ⟨0x80, 0xBF, ?_, ?_⟩
            · rw [sequenceStart, if_neg h0, if_neg h1, if_neg h2, if_neg a, if_neg a2, if_neg a3, if_pos h3]
            · intro b1 r; simp [inRange] at r; omega
    obtain ⟨lo, hi, s, hr⟩ := s
    match rest with
    | [] => right; simp [decodeRune, s]
    | [b1] => right; by_cases r : inRange lo hi b1 = true <;> simp [decodeRune, s, r]
    | b1 :: b2 :: rest2 =>
      by_cases r : inRange lo hi b1 = true
      · by_cases r2 : inRange 0x80 0xBF b2 = true
        · obtain ⟨q1, q2, q3, q4⟩ := hr b1 r
          simp [inRange] at r2
          refine key (Char.ofNat ((b % 16) * 4096 + (b1 % 64) * 64 + b2 % 64)) [b1, b2] rest2 ?_ rfl
          have hb' : b = 0xE0 ∨ b = 0xED ∨ (0xE0 < b ∧ b ≠ 0xED) := by omega
          have e := ofNat_toNat_char (n := (b % 16) * 4096 + (b1 % 64) * 64 + b2 % 64) (by
            rcases hb' with a | a | a
            · have := q3 a; omega
            · have := q4 a; omega
            · omega)
          have ge : 0x800 ≤ (b % 16) * 4096 + (b1 % 64) * 64 + b2 % 64 := by
            rcases hb' with a | a | a
            · have := q3 a; omega
            · omega
            · omega
          rw [utf8Bytes]; rw [e, if_neg (by omega), if_neg (by omega), if_pos (by omega)]
          simp only [List.map_cons, List.map_nil]
          rw [ofNat_toNat_of_lt (by omega), ofNat_toNat_of_lt (by omega), ofNat_toNat_of_lt (by omega)]
          congr 1
          · omega
          · congr 1
            · omega
            · congr 1; omega
        · right; simp [decodeRune, s, r, r2]
      · right; simp [decodeRune, s, r]
  by_cases h4 : b ≤ 0xF4
  · have s : ∃ lo hi, sequenceStart b = some (4, lo, hi) ∧ ∀ b1, inRange lo hi b1 = true → 0x80 ≤ b1 ∧ b1 ≤ 0xBF ∧
        (b = 0xF0 → 0x90 ≤ b1) ∧ (b = 0xF4 → b1 ≤ 0x8F) := by
      have g0 : ¬ b ≤ 0xE0 := by omega
      have g1 : ¬ b ≤ 0xEC := by omega
      have g2 : ¬ b ≤ 0xED := by omega
      by_cases a : b ≤ 0xF0
      · refine ⟨0x90, 0xBF, ?_, ?_⟩
        · rw [sequenceStart, if_neg h0, if_neg h1, if_neg h2, if_neg g0, if_neg g1, if_neg g2, if_neg h3, if_pos a]
        · intro b1 r; simp [inRange] at r; omega
      · by_cases a2 : b ≤ 0xF3
        · refine ⟨0x80, 0xBF, ?_, ?_⟩
          · rw [sequenceStart, if_neg h0, if_neg h1, if_neg h2, if_neg g0, if_neg g1, if_neg g2, if_neg h3, if_neg a, if_pos a2]
          · intro b1 r; simp [inRange] at r; omega
        · refine ⟨0x80, 0x8F, ?_, ?_⟩
          · rw [sequenceStart, if_neg h0, if_neg h1, if_neg h2, if_neg g0, if_neg g1, if_neg g2, if_neg h3, if_neg a, if_neg a2, if_pos h4]
          · intro b1 r; simp [inRange] at r; omega
    obtain ⟨lo, hi, s, hr⟩ := s
    match rest with
    | [] => right; simp [decodeRune, s]
    | [b1] => right; by_cases r : inRange lo hi b1 = true <;> simp [decodeRune, s, r]
    | [b1, b2] =>
      right
      by_cases r : inRange lo hi b1 = true <;> by_cases r2 : inRange 0x80 0xBF b2 = true <;> simp [decodeRune, s, r, r2]
    | b1 :: b2 :: b3 :: rest3 =>
      by_cases r : inRange lo hi b1 = true
      · by_cases r2 : inRange 0x80 0xBF b2 = true
        · by_cases r3 : inRange 0x80 0xBF b3 = true
          · obtain ⟨q1, q2, q3, q4⟩ := hr b1 r
            simp [inRange] at r2 r3
            refine key (Char.ofNat ((b % 8) * 262144 + (b1 % 64) * 4096 + (b2 % 64) * 64 + b3 % 64)) [b1, b2, b3] rest3 ?_ rfl
            have hb' : b = 0xF0 ∨ b = 0xF4 ∨ (0xF0 < b ∧ b < 0xF4) := by omega
            have bounds : 0x10000 ≤ (b % 8) * 262144 + (b1 % 64) * 4096 + (b2 % 64) * 64 + b3 % 64 ∧
                (b % 8) * 262144 + (b1 % 64) * 4096 + (b2 % 64) * 64 + b3 % 64 < 0x110000 := by
              rcases hb' with a | a | a
              · have := q3 a; omega
              · have := q4 a; omega
              · omega
            have e := ofNat_toNat_char (n := (b % 8) * 262144 + (b1 % 64) * 4096 + (b2 % 64) * 64 + b3 % 64) (by omega)
            rw [utf8Bytes]; rw [e, if_neg (by omega), if_neg (by omega), if_neg (by omega)]
            simp only [List.map_cons, List.map_nil]
            rw [ofNat_toNat_of_lt (by omega), ofNat_toNat_of_lt (by omega), ofNat_toNat_of_lt (by omega), ofNat_toNat_of_lt (by omega)]
            congr 1
            · omega
            · congr 1
              · omega
              · congr 1
                · omega
                · congr 1; omega
          · right; simp [decodeRune, s, r, r2, r3]
        · right; simp [decodeRune, s, r, r2]
      · right; simp [decodeRune, s, r]
  · right
    have : sequenceStart b = none := by
      rw [sequenceStart, if_neg h0, if_neg h1, if_neg h2, if_neg (by omega), if_neg (by omega), if_neg (by omega), if_neg h3,
        if_neg (by omega), if_neg (by omega), if_neg h4]
    simp [decodeRune, this]

theorem decodeFrom_skip (l rest : List UInt8) : decodeFrom l.length (l ++ rest) = decodeFrom 0 rest := by
  induction l with
  | nil => rfl
  | cons b l ih => simp only [List.length_cons, List.cons_append]; rw [decodeFrom]; exact ih

theorem utf8_ne_nil (c : Char) : utf8Bytes c ≠ [] := by
  rw [utf8Bytes]; split
  · simp
  · split
    · simp
    · split <;> simp

theorem decodeFrom_char (c : Char) (bs : List UInt8) : decodeFrom 0 (utf8Bytes c ++ bs) = c :: decodeFrom 0 bs := by
  obtain ⟨b, l, e⟩ := List.exists_cons_of_ne_nil (utf8_ne_nil c)
  rw [e, List.cons_append, decodeFrom]
  have := decode_char c b.toNat (l.map UInt8.toNat) (bs.map UInt8.toNat) (by rw [e]; rfl)
  rw [List.map_append, this]
  simp only [List.length_map, Nat.add_sub_cancel]
  rw [decodeFrom_skip]

theorem map_toNat_inj {l l' : List UInt8} (h : l.map UInt8.toNat = l'.map UInt8.toNat) : l = l' := by
  exact (List.map_injective_iff.2 fun a b h => UInt8.toNat_inj.1 h) h

theorem read_spec (bs : List UInt8) : ReadAs bs (decodeFrom 0 bs) := by
  generalize hn : bs.length = n
  induction n using Nat.strong_induction_on generalizing bs with
  | _ n ih =>
    match bs with
    | [] => exact .nil
    | b :: bs =>
      by_cases h : ∃ c, utf8Bytes c <+: b :: bs
      · obtain ⟨c, rest, e⟩ := h
        rw [← e, decodeFrom_char]
        have := utf8_ne_nil c
        refine .char _ _ _ (ih rest.length ?_ rest rfl)
        have e2 := congrArg List.length e
        have : 0 < (utf8Bytes c).length := List.length_pos_of_ne_nil this
        simp only [List.length_append, List.length_cons] at e2 hn
        omega
      · have : decodeRune b.toNat (bs.map UInt8.toNat) = (runeError, 1) := by
          rcases decode_cases b.toNat (bs.map UInt8.toNat) b.toNat_lt (by
            intro x hx; obtain ⟨y, _, rfl⟩ := List.mem_map.1 hx; exact y.toNat_lt) with ⟨c, l, rest', e, e2⟩ | h2
          · exact (h ⟨c, by
              obtain ⟨q1, q2, eq, f1, f2⟩ := List.map_eq_append_iff.1 e
              refine ⟨q2, ?_⟩
              have : utf8Bytes c = b :: q1 := map_toNat_inj (by rw [e2, List.map_cons, f1])
              rw [this, eq, List.cons_append]⟩).elim
          · exact h2
        rw [decodeFrom, this]
        exact .invalid _ _ _ (fun c hc => h ⟨c, hc⟩) (ih bs.length (by simp at hn; omega) bs rfl)

theorem read_unique {bs : List UInt8} {s : Str} (h : ReadAs bs s) : s = decodeFrom 0 bs := by
  induction h with
  | nil => rfl
  | char c bs s _ ih => rw [decodeFrom_char, ← ih]
  | invalid b bs s hi _ ih =>
    have := read_spec (b :: bs)
    generalize hd : decodeFrom 0 (b :: bs) = d at this
    generalize hb : b :: bs = l at this
    cases this with
    | nil => cases hb
    | char c rest s2 _ => exact (hi c ⟨rest, hb.symm⟩).elim
    | invalid b' bs' s2 _ h2 =>
      cases hb
      rw [decodeFrom] at hd
      have e : decodeRune b.toNat (bs.map UInt8.toNat) = (runeError, 1) := by
        rcases decode_cases b.toNat (bs.map UInt8.toNat) b.toNat_lt (by
            intro x hx; obtain ⟨y, _, rfl⟩ := List.mem_map.1 hx; exact y.toNat_lt) with ⟨c, l, rest', e, e2⟩ | h2
        · exact (hi c (by
            obtain ⟨q1, q2, eq, f1, f2⟩ := List.map_eq_append_iff.1 e
            refine ⟨q2, ?_⟩
            have : utf8Bytes c = b :: q1 := map_toNat_inj (by rw [e2, List.map_cons, f1])
            rw [this, eq, List.cons_append])).elim
        · exact h2
      rw [e] at hd
      simp only [Nat.sub_self] at hd
      have := (List.cons.injEq _ _ _ _ ▸ hd).2
      rw [ih, this]

end Asn1go
