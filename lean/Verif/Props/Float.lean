import Verif.Proofs.RealFloat
import Verif.Props.Real

/-! REAL literals in float64: C78 and C79. -/

namespace Asn1go.Props

open Spec LR

/-! ### C78: the float64 of a literal -/

/-- Rounding takes a number to a float64 to which none is nearer. -/
theorem C78_round (x q : ℚ) (h : F64.round x = .fin q) : IsFloat64 q ∧ ∀ r, IsFloat64 r → |q - x| ≤ |r - x| := by
  rw [F64.round_eq] at h
  split_ifs at h with hc
  cases h
  exact ⟨F64.rounded_isFloat hc, fun r hr => F64.rounded_nearest hr⟩

/-- 1/3 is not a float64, its neighbour is. -/
example : F64.round (1 / 3) = .fin (6004799503160661 / 18014398509481984) ∧ F64.round (1 / 2) = .fin (1 / 2) ∧
    F64.round (2 ^ 1024) = .inf false ∧ F64.round (10 ^ (-324 : Int)) = .fin 0 := by
  refine ⟨?_, ?_, ?_, ?_⟩ <;> decide +kernel

theorem parseRealNumber_mantissa (i : Int) (f : Nat) (e : Int) : parseRealNumber i f e = mantissa i f (Nat.clog 10 f) * 10 ^ e := by
  rw [parseRealNumber_eq]
  simp [mantissa]

/-- The digits after the dot are a number for which the code finds the number of digits it finds in exact arithmetic: 0, 1, or a
number below 10^13 that is no power of ten. -/
def PlainFraction (f : Nat) : Prop := f ≤ 1 ∨ f < 10 ^ 13 ∧ ∀ k, f ≠ 10 ^ k

theorem plain_mantissa (log : MathLog10) {i : Int} {f : Nat} (hf : PlainFraction f) : mantissa i f (log.shift f) = mantissa i f (Nat.clog 10 f) := by
  rcases Nat.lt_or_ge f 2 with h | h
  · rcases (by omega : f = 0 ∨ f = 1) with rfl | rfl
    · simp [mantissa]
    · have := log.shift_one
      simp only [Nat.cast_one] at this ⊢
      rw [this]
      simp
  · rcases hf with hf | ⟨h1, h2⟩
    · omega
    · rw [log.shift_eq (by omega) h1 h2]

theorem plain_lt {f : Nat} (hf : PlainFraction f) : (f : Int) < 2 ^ 63 := by
  rcases hf with h | ⟨h, -⟩ <;> omega

/-- The float64 of a literal differs from its value in exact arithmetic by 2^-49 of it at most, for exponents from -307 to 308 and
values that are 0 or from 2^-1021 to 2^1023, if the digits after the dot are plain. -/
theorem C78_close (log : MathLog10) (i : Int) (f : Nat) (e : Int) (hi0 : 0 ≤ i) (hi : i < 2 ^ 63) (hf : PlainFraction f)
    (he : -307 ≤ e) (he' : e ≤ 308) (hlow : parseRealNumber i f e = 0 ∨ 2 ^ (-1021 : Int) ≤ parseRealNumber i f e)
    (hhigh : parseRealNumber i f e ≤ 2 ^ (1023 : Int)) :
    ∃ q, realFloat log i f e = .fin q ∧ |q - parseRealNumber i f e| ≤ parseRealNumber i f e / 2 ^ 49 := by
  rw [parseRealNumber_mantissa, ← plain_mantissa log hf] at *
  obtain ⟨q, hq, hn⟩ := realFloat_near log hi0 hi (Int.natCast_nonneg f) (plain_lt hf) he he'
    (hlow.imp_left fun h => (mul_eq_zero.1 h).resolve_right (F64.ten_pos e).ne') hhigh
  exact ⟨q, hq, hn.error le_rfl (mul_nonneg (mantissa_nonneg hi0 (Int.natCast_nonneg f)) (F64.ten_pos e).le)⟩

/-- All fractions: the error is the same, of the value with the number of digits that `math.Log10` gives. -/
theorem C78_any (log : MathLog10) (i f e : Int) (hi0 : 0 ≤ i) (hi : i < 2 ^ 63) (hf0 : 0 ≤ f) (hf : f < 2 ^ 63)
    (he : -307 ≤ e) (he' : e ≤ 308) (hlow : mantissa i f (log.shift f) = 0 ∨ 2 ^ (-1021 : Int) ≤ mantissa i f (log.shift f) * 10 ^ e)
    (hhigh : mantissa i f (log.shift f) * 10 ^ e ≤ 2 ^ (1023 : Int)) :
    ∃ q, realFloat log i f e = .fin q ∧ |q - mantissa i f (log.shift f) * 10 ^ e| ≤ mantissa i f (log.shift f) * 10 ^ e / 2 ^ 49 := by
  obtain ⟨q, hq, hn⟩ := realFloat_near log hi0 hi hf0 hf he he' hlow hhigh
  exact ⟨q, hq, hn.error le_rfl (mul_nonneg (mantissa_nonneg hi0 hf0) (F64.ten_pos e).le)⟩

/-- For powers of ten that number may be one too large: `1.10` is near 2 or near 1.1. -/
theorem C78_power (log : MathLog10) (k : Nat) (hk : k < 13) : log.shift (10 ^ k : ℕ) = k ∨ log.shift (10 ^ k : ℕ) = k + 1 := log.shift_pow hk

/-- `12.34` and `1.5E-300`. -/
example (log : MathLog10) : (∃ q, realFloat log 12 34 0 = .fin q ∧ |q - 617 / 50| ≤ 617 / 50 / 2 ^ 49) ∧
    ∃ q, realFloat log 1 5 (-300) = .fin q ∧ |q - parseRealNumber 1 5 (-300)| ≤ parseRealNumber 1 5 (-300) / 2 ^ 49 := by
  have hp : ∀ f, 1 < f → f < 100 → f ≠ 10 → PlainFraction f := fun f h1 h2 h3 => .inr ⟨by omega, fun k hk => by
    rcases k with _ | _ | k
    · omega
    · omega
    · have : 1 ≤ 10 ^ k := Nat.one_le_pow _ _ (by norm_num)
      rw [pow_succ, pow_succ] at hk
      omega⟩
  constructor
  · have h := C78_close log 12 34 0 (by norm_num) (by norm_num) (hp 34 (by norm_num) (by norm_num) (by norm_num)) (by norm_num) (by norm_num)
      (.inr (by decide +kernel)) (by decide +kernel)
    rwa [show parseRealNumber 12 ((34 : ℕ) : Int) 0 = 617 / 50 by decide +kernel] at h
  · exact C78_close log 1 5 (-300) (by norm_num) (by norm_num) (hp 5 (by norm_num) (by norm_num) (by norm_num)) (by norm_num) (by norm_num)
      (.inr (by decide +kernel)) (by decide +kernel)

/-- C21 in float64: literals with at most 13 digits after the dot that are all zero or start with a digit other than zero and are not
`10…0` are read as their decimal values, up to 2^-49 of them, for exponents from -307 to 308 and values that are 0 or from 2^-1021
to 2^1023.  Missing from C21: the other literals. -/
theorem C21_float_partial (log : MathLog10) (l : RealLit) (t : Tree) (hf : ∀ c ∈ l.fraction, 48 ≤ c.toNat ∧ c.toNat ≤ 57)
    (h : Derives (.n NT.realnumber) l.tokens t) (hw : decimal l.whole < 2 ^ 63) (hlen : l.fraction.length ≤ 13)
    (hd : decimal l.fraction = 0 ∨ 10 ^ (l.fraction.length - 1) < decimal l.fraction) (he : -307 ≤ l.exponent) (he' : l.exponent ≤ 308)
    (hlow : l.value = 0 ∨ 2 ^ (-1021 : Int) ≤ l.value) (hhigh : l.value ≤ 2 ^ (1023 : Int)) :
    ∃ q, (t.eval idealPointers).real.float log = .fin q ∧ |q - l.value| ≤ l.value / 2 ^ 49 := by
  have hv := (C21_exactly_partial l t hf h).2 hd
  rw [realnumber_eval l t h] at hv ⊢
  rw [GoReal.value, Option.some_inj] at hv
  rw [← hv] at hlow hhigh ⊢
  refine C78_close log _ _ _ (by omega) (by omega) ?_ he he' hlow hhigh
  rcases hd with hd | hd
  · exact .inl (by omega)
  · have hlt := decimal_lt l.fraction hf
    refine .inr ⟨hlt.trans_le (Nat.pow_le_pow_right (by norm_num) hlen), fun k hk => ?_⟩
    rw [hk] at hlt hd
    have h1 := (Nat.pow_lt_pow_iff_right (by norm_num : 1 < 10)).1 hlt
    have h2 := (Nat.pow_lt_pow_iff_right (by norm_num : 1 < 10)).1 hd
    omega

/-! ### C79: literals are numbers -/

/-- Every REAL literal whose numbers fit 64 bits is a number in float64. -/
def C79_statement : Prop := ∀ (log : MathLog10) (i f e : Int), 0 ≤ i → i < 2 ^ 63 → 0 ≤ f → f < 2 ^ 63 → -2 ^ 63 < e → e < 2 ^ 63 →
  ∃ q, realFloat log i f e = .fin q

/-- With exponents up to 288 it is.  Missing: larger exponents, see below. -/
theorem C79_finite_partial (log : MathLog10) (i f e : Int) (hi0 : 0 ≤ i) (hi : i < 2 ^ 63) (hf0 : 0 ≤ f) (hf : f < 2 ^ 63) (he : e ≤ 288) :
    ∃ q, realFloat log i f e = .fin q := realFloat_finite log hi0 hi hf0 hf he

/-- From 289 to 308 it depends on the value, which has to be below 2^1024: 2^1023 is low enough, 2^1024 (1 + 2^-49) too high. -/
theorem C79_range_partial (log : MathLog10) (i f e : Int) (hi0 : 0 ≤ i) (hi : i < 2 ^ 63) (hf0 : 0 ≤ f) (hf : f < 2 ^ 63) (he : 288 < e) (he' : e ≤ 308) :
    (mantissa i f (log.shift f) * 10 ^ e ≤ 2 ^ (1023 : Int) → ∃ q, realFloat log i f e = .fin q) ∧
    (2 ^ (1024 : Int) * (1 + 1 / 2 ^ 49) ≤ mantissa i f (log.shift f) * 10 ^ e → realFloat log i f e = .inf false) := by
  constructor
  · intro h
    by_cases h0 : i = 0 ∧ f = 0
    · obtain ⟨rfl, rfl⟩ := h0
      obtain ⟨q, hq, -⟩ := realFloat_near log hi0 hi hf0 hf (by omega) he' (.inl (by simp [mantissa])) h
      exact ⟨q, hq⟩
    · obtain ⟨q, hq, -⟩ := realFloat_near log hi0 hi hf0 hf (by omega) he' (.inr (by
        have h1 : 10 ^ (-20 : Int) ≤ mantissa i f (log.shift f) := by
          by_cases hf' : f = 0
          · subst hf'
            have h2 : (1 : ℚ) ≤ i := by
              have : 1 ≤ i := by omega
              exact_mod_cast this
            simp only [mantissa, ne_eq, not_true_eq_false, if_false]
            exact le_trans (by norm_num) h2
          · exact mantissa_low hi0 hf0 (shift_nonneg log hf0 hf hf').2 (by omega)
        have h3 : (1 : ℚ) ≤ mantissa i f (log.shift f) * 10 ^ e := by
          refine le_trans ?_ (mul_le_mul h1 (F64.ten_le he.le) (F64.ten_pos _).le ((F64.ten_pos _).le.trans h1))
          rw [← zpow_add₀ (by norm_num)]
          exact one_le_zpow₀ (by norm_num) (by norm_num)
        exact le_trans (by rw [zpow_neg]; exact inv_le_one_of_one_le₀ (one_le_zpow₀ (by norm_num) (by norm_num))) h3)) h
      exact ⟨q, hq⟩
  · intro h
    refine realFloat_big log hi0 hi hf0 hf he' (le_trans ?_ h)
    exact mul_le_mul_of_nonneg_left (by norm_num [F64.unit]) (two_zpow_pos _).le

/-- With exponents over 308 no literal is a number: all are infinite, or not a number for zero. -/
theorem C79_over (log : MathLog10) (i f e : Int) (hi0 : 0 ≤ i) (hi : i < 2 ^ 63) (hf0 : 0 ≤ f) (hf : f < 2 ^ 63) (he : 308 < e) :
    realFloat log i f e = if i = 0 ∧ f = 0 then .nan else .inf false := realFloat_over log hi0 hi hf0 hf he

/-- `0E309` is not a number. -/
theorem C79_false : ¬ C79_statement := fun h => by
  obtain ⟨log⟩ := mathLog10_exists
  obtain ⟨q, hq⟩ := h log 0 0 309 (by norm_num) (by norm_num) (by norm_num) (by norm_num) (by norm_num) (by norm_num)
  rw [C79_over log 0 0 309 (by norm_num) (by norm_num) (by norm_num) (by norm_num) (by norm_num)] at hq
  cases hq

/-- With exponents under -323 all literals are 0, also `1000000E-325`, which is 10^-319 and not 0 in float64. -/
theorem C79_under (log : MathLog10) (i f e : Int) (hi0 : 0 ≤ i) (hi : i < 2 ^ 63) (hf0 : 0 ≤ f) (hf : f < 2 ^ 63) (he : e < -323) :
    realFloat log i f e = .fin 0 := realFloat_under log hi0 hi hf0 hf he

theorem C79_under_witness : (∀ log, realFloat log 1000000 0 (-325) = .fin 0) ∧ F64.round (parseRealNumber 1000000 0 (-325)) ≠ .fin 0 :=
  ⟨fun log => C79_under log _ _ _ (by norm_num) (by norm_num) (by norm_num) (by norm_num) (by norm_num), by decide +kernel⟩

/-- From the text: `1E309` and `0E309`. -/
theorem C79_texts :
    (module? (parseString asciiUnicode (c! "M DEFINITIONS ::= BEGIN r REAL ::= 1E309 END"))).map firstValue = some (some (.real (.lit 1 0 309))) ∧
    (module? (parseString asciiUnicode (c! "M DEFINITIONS ::= BEGIN r REAL ::= 0E309 END"))).map firstValue = some (some (.real (.lit 0 0 309))) ∧
    ∀ log, (GoReal.lit 1 0 309).float log = .inf false ∧ (GoReal.lit 0 0 309).float log = .nan :=
  ⟨by decide +kernel, by decide +kernel, fun log => ⟨C79_over log 1 0 309 (by norm_num) (by norm_num) (by norm_num) (by norm_num) (by norm_num),
    C79_over log 0 0 309 (by norm_num) (by norm_num) (by norm_num) (by norm_num) (by norm_num)⟩⟩

end Asn1go.Props
