import Mathlib.Analysis.SpecialFunctions.Log.Base
import Mathlib.Tactic.FieldSimp
import Verif.Model.Real
import Verif.Spec.Lexical

/-! Facts about the value of REAL literals. -/

namespace Asn1go

open Spec

/-- `Nat.clog` in the model is the rounded up logarithm of parser.go:44. -/
theorem clog_eq_ceil_log (n : Nat) (h : n ≠ 0) : (Nat.clog 10 n : Int) = ⌈Real.logb 10 n⌉ := by
  have h1 := Real.natCeil_logb_natCast 10 n
  have h2 : (0 : ℝ) ≤ Real.logb 10 n := Real.logb_nonneg (by norm_num) (by exact_mod_cast Nat.one_le_iff_ne_zero.2 h)
  rw [← h1, Int.natCast_ceil_eq_ceil (by exact_mod_cast h2)]
  norm_num

theorem clog_iff (n k : Nat) (h : n ≠ 0) (hk : n ≤ 10 ^ k) : Nat.clog 10 n = k ↔ 10 ^ (k - 1) < n ∨ k = 0 := by
  rcases k with _ | k
  · simpa using Nat.clog_of_right_le_one (by simpa using hk) 10
  · have h1 : Nat.clog 10 n ≤ k + 1 := Nat.clog_le_of_le_pow hk
    have h2 : k < Nat.clog 10 n ↔ 10 ^ k < n := Nat.lt_clog_iff_pow_lt (by norm_num)
    simp only [Nat.add_sub_cancel, Nat.succ_ne_zero, or_false]
    omega

theorem decimal_lt (w : Str) (h : ∀ c ∈ w, 48 ≤ c.toNat ∧ c.toNat ≤ 57) : decimal w < 10 ^ w.length := by
  induction w with
  | nil => simp [decimal]
  | cons c w ih =>
    have h1 := h c (List.mem_cons_self ..)
    have h2 := ih fun x hx => h x (List.mem_cons_of_mem _ hx)
    have h3 : c.toNat - 48 ≤ 9 := by omega
    have h4 := Nat.mul_le_mul_right (10 ^ w.length) h3
    simp only [decimal, List.length_cons, pow_succ]
    omega

theorem div_pow_inj (a : ℚ) (m n : Nat) (ha : a ≠ 0) : a / 10 ^ m = a / 10 ^ n ↔ m = n := by
  constructor
  · intro h
    have hm : (10 : ℚ) ^ m ≠ 0 := by positivity
    have hn : (10 : ℚ) ^ n ≠ 0 := by positivity
    rw [div_eq_div_iff hm hn] at h
    have h2 := mul_left_cancel₀ ha h
    exact (Nat.pow_right_injective (le_refl 2 |>.trans (by norm_num : 2 ≤ 10)) (by exact_mod_cast h2)).symm
  · rintro rfl; rfl

/-- When the fraction is what its digits mean. -/
theorem fraction_iff (i : Int) (w : Str) (h : ∀ c ∈ w, 48 ≤ c.toNat ∧ c.toNat ≤ 57) :
    (if (decimal w : Int) ≠ 0 then (i : ℚ) + ((decimal w : Int) : ℚ) / 10 ^ Nat.clog 10 (decimal w : Int).toNat else (i : ℚ)) =
      i + (decimal w : ℚ) / 10 ^ w.length ↔ decimal w = 0 ∨ 10 ^ (w.length - 1) < decimal w := by
  by_cases h0 : decimal w = 0
  · simp [h0]
  · have hlt := decimal_lt w h
    have hw : w.length ≠ 0 := by
      intro e
      rw [e] at hlt
      simp at hlt
      exact h0 hlt
    have h0' : (decimal w : ℚ) ≠ 0 := by exact_mod_cast h0
    rw [if_pos (by exact_mod_cast h0), Int.toNat_natCast, Int.cast_natCast, add_left_cancel_iff, div_pow_inj _ _ _ h0',
      clog_iff _ _ h0 hlt.le]
    simp [h0, hw]

end Asn1go
