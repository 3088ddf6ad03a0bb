import Mathlib.Algebra.Order.Ring.Pow
import Verif.Proofs.Float
import Verif.Proofs.Real

/-! The float64 of a REAL literal against its value in exact arithmetic. -/

namespace Asn1go

/-- A factor that makes up for the error of `math.Log10`. -/
noncomputable def slack : ℝ := 1 + 9 / 10 ^ 14

theorem slack_log : 1 / 2 ^ 46 ≤ Real.logb 10 slack := by
  have h1 : (1 : ℝ) + (2 ^ 44 : ℕ) * (9 / 10 ^ 14) ≤ slack ^ (2 ^ 44) := one_add_mul_le_pow (by norm_num) _
  have h2 : (10 : ℝ) ≤ slack ^ (2 ^ 46) := by
    rw [show 2 ^ 46 = 2 ^ 44 * 4 by norm_num, pow_mul]
    calc (10 : ℝ) ≤ (1 + (2 ^ 44 : ℕ) * (9 / 10 ^ 14)) ^ 4 := by norm_num
      _ ≤ _ := by gcongr
  have h3 : Real.logb 10 10 ≤ Real.logb 10 (slack ^ (2 ^ 46)) := Real.logb_le_logb_of_le (by norm_num) (by norm_num) h2
  rw [Real.logb_pow, Real.logb_self_eq_one (by norm_num)] at h3
  rw [div_le_iff₀ (by positivity), mul_comm]
  exact_mod_cast h3

theorem slack_pos : 0 < slack := by norm_num [slack]

theorem logb_ten (k : Int) : Real.logb 10 (10 ^ k) = k := by
  rw [← Real.rpow_intCast, Real.logb_rpow (by norm_num) (by norm_num)]

namespace MathLog10

variable (log : MathLog10)

theorem value_le {x : ℚ} {k : Int} (h1 : 1 ≤ x) (h2 : x ≤ 2 ^ 64) (h : (x : ℝ) * slack ≤ 10 ^ k) : log.value x ≤ k := by
  have hx : (0 : ℝ) < x := by exact_mod_cast lt_of_lt_of_le one_pos h1
  have hc := (abs_le.1 (log.close x h1 h2)).2
  have h3 : Real.logb 10 (x * slack) ≤ Real.logb 10 (10 ^ k) := Real.logb_le_logb_of_le (by norm_num) (mul_pos hx slack_pos) h
  rw [Real.logb_mul hx.ne' slack_pos.ne', logb_ten] at h3
  have := slack_log
  have h4 : ((log.value x : ℚ) : ℝ) ≤ k := by linarith
  exact_mod_cast h4

theorem lt_value {x : ℚ} {k : Int} (h1 : 1 ≤ x) (h2 : x ≤ 2 ^ 64) (h : (10 : ℝ) ^ k * slack < x) : k < log.value x := by
  have hx : (0 : ℝ) < x := by exact_mod_cast lt_of_lt_of_le one_pos h1
  have hk : (0 : ℝ) < 10 ^ k := by positivity
  have hc := (abs_le.1 (log.close x h1 h2)).1
  have h3 : Real.logb 10 (10 ^ k * slack) < Real.logb 10 x := Real.logb_lt_logb (by norm_num) (mul_pos hk slack_pos) h
  rw [Real.logb_mul hk.ne' slack_pos.ne', logb_ten] at h3
  have := slack_log
  have h4 : (k : ℝ) < ((log.value x : ℚ) : ℝ) := by linarith
  exact_mod_cast h4

theorem shift_eq_ceil {f : Int} (h : |f| < 2 ^ 53) : log.shift f = ⌈log.value f⌉ := by
  unfold shift
  rw [F64.round_int h]

theorem ceil_eq {x : ℚ} {k : Int} (h1 : (k - 1 : Int) < log.value x) (h2 : log.value x ≤ k) : ⌈log.value x⌉ = k := by
  rw [Int.ceil_eq_iff]
  exact ⟨by push_cast at h1; exact h1, h2⟩

/-- For fractions below 10^13 that are no powers of ten the rounded up logarithm is exact. -/
theorem shift_eq {f : Nat} (h1 : 1 < f) (h2 : f < 10 ^ 13) (hp : ∀ k, f ≠ 10 ^ k) : log.shift f = Nat.clog 10 f := by
  have hk0 : 0 < Nat.clog 10 f := Nat.clog_pos (by norm_num) h1
  obtain ⟨k, hk⟩ : ∃ k, Nat.clog 10 f = k + 1 := ⟨Nat.clog 10 f - 1, by omega⟩
  have hle : f ≤ 10 ^ (k + 1) := hk ▸ Nat.le_pow_clog (by norm_num) f
  have hlt : f < 10 ^ (k + 1) := lt_of_le_of_ne hle (hp _)
  have hgt : 10 ^ k < f := (Nat.lt_clog_iff_pow_lt (by norm_num)).1 (by omega)
  have hk13 : k < 13 := by
    by_contra hc
    have := Nat.pow_le_pow_right (n := 10) (by norm_num) (not_lt.1 hc)
    omega
  have hK : (10 : ℝ) ^ k ≤ 10 ^ 12 := pow_le_pow_right₀ (by norm_num) (by omega)
  have hf1 : (1 : ℚ) ≤ ((f : Int) : ℚ) := by exact_mod_cast h1.le
  have hf2 : ((f : Int) : ℚ) ≤ 2 ^ 64 := by
    have : f ≤ 2 ^ 64 := by omega
    exact_mod_cast this
  rw [log.shift_eq_ceil (by rw [abs_of_nonneg (by omega)]; omega), hk]
  refine log.ceil_eq (k := ((k + 1 : ℕ) : Int)) (log.lt_value hf1 hf2 ?_) (log.value_le hf1 hf2 ?_)
  · have h3 : (10 : ℝ) ^ k + 1 ≤ f := by exact_mod_cast hgt
    push_cast
    rw [add_sub_cancel_right, zpow_natCast]
    unfold slack
    linarith
  · have h3 : (f : ℝ) + 1 ≤ 10 ^ (k + 1) := by exact_mod_cast hlt
    push_cast
    rw [← Nat.cast_succ, zpow_natCast, Nat.succ_eq_add_one]
    have h4 : (f : ℝ) ≤ 10 ^ 13 := by exact_mod_cast h2.le
    unfold slack
    push_cast
    linarith

theorem shift_one : log.shift 1 = 0 := by
  rw [log.shift_eq_ceil (by norm_num)]
  simp [log.one]

/-- For powers of ten it is exact or one too much. -/
theorem shift_pow {k : Nat} (h2 : k < 13) : log.shift (10 ^ k : ℕ) = k ∨ log.shift (10 ^ k : ℕ) = k + 1 := by
  have hb : 10 ^ k ≤ 10 ^ 12 := Nat.pow_le_pow_right (by norm_num) (by omega)
  have hf1 : (1 : ℚ) ≤ (((10 ^ k : ℕ) : Int) : ℚ) := by exact_mod_cast Nat.one_le_pow k 10 (by norm_num)
  have hf2 : (((10 ^ k : ℕ) : Int) : ℚ) ≤ 2 ^ 64 := by
    have : 10 ^ k ≤ 2 ^ 64 := by omega
    exact_mod_cast this
  rw [log.shift_eq_ceil (by rw [abs_of_nonneg (Int.natCast_nonneg _)]; omega)]
  have hk : (0 : ℝ) < 10 ^ k := by positivity
  have h1 : ((k : Int) - 1 : Int) < log.value (((10 ^ k : ℕ) : Int) : ℚ) := by
    refine log.lt_value hf1 hf2 ?_
    rw [zpow_sub_one₀ (by norm_num), zpow_natCast]
    push_cast
    have : slack < 10 := by norm_num [slack]
    nlinarith
  have h3 : log.value (((10 ^ k : ℕ) : Int) : ℚ) ≤ ((k + 1 : ℕ) : Int) := by
    refine log.value_le hf1 hf2 ?_
    rw [zpow_natCast, pow_succ]
    push_cast
    have : slack < 10 := by norm_num [slack]
    nlinarith
  have h4 := Int.lt_ceil.2 h1
  have h5 := Int.ceil_le.2 h3
  omega

/-- It is between 0 and 20 for all fractions. -/
theorem shift_bounds {f : Int} (h1 : 1 ≤ f) (h2 : f < 2 ^ 63) : 0 ≤ log.shift f ∧ log.shift f ≤ 20 := by
  have hf1 : (1 : ℚ) ≤ f := by exact_mod_cast h1
  have hf2 : (f : ℚ) < 2 ^ 63 := by exact_mod_cast h2
  obtain ⟨q, hq, hn⟩ := F64.round_near (x := f) (.inr (le_trans (by rw [zpow_neg]; exact inv_le_one_of_one_le₀ (one_le_zpow₀ (by norm_num) (by norm_num))) hf1))
    (hf2.le.trans (by rw [← zpow_natCast]; exact two_le (by norm_num)))
  have hq0 : 1 ≤ q := by
    by_cases hs : f < 2 ^ 53
    · rw [F64.round_int (by rw [abs_of_nonneg (by omega)]; exact hs), F64.fin.injEq] at hq
      rw [← hq]
      exact hf1
    · have h3 := hn.low
      have h4 : (2 : ℚ) ^ 53 ≤ f := by exact_mod_cast not_lt.1 hs
      have : F64.unit ^ 1 ≤ 2 := by norm_num [F64.unit]
      by_contra hc
      have h5 : q * F64.unit ^ 1 ≤ 1 * 2 := mul_le_mul (not_le.1 hc).le this (pow_pos F64.unit_pos 1).le one_pos.le
      norm_num at h4
      linarith
  have hq1 : q ≤ 2 ^ 64 := by
    refine hn.high.trans ?_
    have : F64.unit ^ 1 ≤ 2 := by norm_num [F64.unit]
    have h5 : (f : ℚ) * F64.unit ^ 1 ≤ 2 ^ 63 * 2 := mul_le_mul hf2.le this (pow_pos F64.unit_pos 1).le (by positivity)
    linarith
  have hs : log.shift f = ⌈log.value q⌉ := by unfold shift; rw [hq]
  rw [hs]
  constructor
  · have h1 : (-1 : Int) < log.value q := by
      refine log.lt_value hq0 hq1 ?_
      have : (1 : ℝ) ≤ q := by exact_mod_cast hq0
      norm_num [slack]
      linarith
    have := Int.lt_ceil.2 h1
    omega
  · have h3 : log.value q ≤ (20 : Int) := by
      refine log.value_le hq0 hq1 ?_
      have : (q : ℝ) ≤ 2 ^ 64 := by exact_mod_cast hq1
      norm_num [slack] at this ⊢
      linarith
    exact Int.ceil_le.2 h3

end MathLog10

open F64

theorem one_normal {x : ℚ} (h : 1 ≤ x) : (2 : ℚ) ^ (-1022 : Int) ≤ x :=
  le_trans (by rw [zpow_neg]; exact inv_le_one_of_one_le₀ (one_le_zpow₀ (by norm_num) (by norm_num))) h

theorem round_nat {n : Int} (h0 : 0 ≤ n) (h : n < 2 ^ 63) : ∃ q, F64.round n = .fin q ∧ Near 1 q n := by
  refine round_near ?_ ?_
  · rcases h0.eq_or_lt with h0 | h0
    · exact .inl (by rw [← h0]; simp)
    · exact .inr (one_normal (by exact_mod_cast h0))
  · have : (n : ℚ) ≤ 2 ^ 63 := by exact_mod_cast h.le
    exact this.trans (by rw [← zpow_natCast]; exact two_le (by norm_num))

theorem unit_le_two {k : ℕ} (hk : k ≤ 7) : unit ^ k ≤ 2 :=
  (pow_le_pow_right₀ (by norm_num [unit]) hk).trans (by norm_num [unit])

theorem _root_.Asn1go.F64.Near.ge {k : ℕ} {q x c : ℚ} (h : Near k q x) (hk : k ≤ 7) (hx : 0 ≤ x) (hc : c * 2 ≤ x) : c ≤ q := by
  have h1 : q * unit ^ k ≤ q * 2 := mul_le_mul_of_nonneg_left (unit_le_two hk) (h.nonneg hx)
  exact le_of_mul_le_mul_right (hc.trans (h.low.trans h1)) two_pos

theorem _root_.Asn1go.F64.Near.le {k : ℕ} {q x c : ℚ} (h : Near k q x) (hk : k ≤ 7) (hx : 0 ≤ x) (hc : x * 2 ≤ c) : q ≤ c :=
  h.high.trans ((mul_le_mul_of_nonneg_left (unit_le_two hk) hx).trans hc)

theorem two_pow_le {a : ℕ} {b : Int} (h : (a : Int) ≤ b) : (2 : ℚ) ^ a ≤ 2 ^ b := by
  rw [← zpow_natCast]; exact two_le h

/-- The number before the exponent, as the code computes it with `s` for the number of digits. -/
def mantissa (i f s : Int) : ℚ := if f ≠ 0 then (i : ℚ) + (f : ℚ) / 10 ^ s else i

theorem mantissa_nonneg {i f s : Int} (hi : 0 ≤ i) (hf : 0 ≤ f) : 0 ≤ mantissa i f s := by
  have h1 : (0 : ℚ) ≤ i := by exact_mod_cast hi
  have h2 : (0 : ℚ) ≤ f := by exact_mod_cast hf
  unfold mantissa
  split_ifs <;> positivity

theorem mantissa_le {i f s : Int} (hi : i < 2 ^ 63) (hf0 : 0 ≤ f) (hf : f < 2 ^ 63) (hs : 0 ≤ s) : mantissa i f s ≤ 2 ^ 64 := by
  have h1 : (i : ℚ) ≤ 2 ^ 63 := by exact_mod_cast hi.le
  have h2 : (f : ℚ) ≤ 2 ^ 63 := by exact_mod_cast hf.le
  have h0 : (0 : ℚ) ≤ f := by exact_mod_cast hf0
  unfold mantissa
  split_ifs
  · have h3 : (f : ℚ) / 10 ^ s ≤ f := div_le_self h0 (one_le_zpow₀ (by norm_num) hs)
    norm_num at h1 h2 ⊢
    linarith
  · norm_num at h1 ⊢
    linarith

theorem mantissa_low {i f s : Int} (hi : 0 ≤ i) (hf : 0 ≤ f) (hs : s ≤ 20) (h : i ≠ 0 ∨ f ≠ 0) : 10 ^ (-20 : Int) ≤ mantissa i f s := by
  have h0 : (0 : ℚ) ≤ i := by exact_mod_cast hi
  have hp : (10 : ℚ) ^ (-20 : Int) ≤ 1 := by norm_num
  unfold mantissa
  split_ifs with h1
  · have h2 : (1 : ℚ) ≤ f := by
      have : 1 ≤ f := by omega
      exact_mod_cast this
    have h3 : (10 : ℚ) ^ (-20 : Int) ≤ (f : ℚ) / 10 ^ s := by
      calc (10 : ℚ) ^ (-20 : Int) ≤ 10 ^ (-s) := ten_le (by omega)
        _ = 1 / 10 ^ s := by rw [zpow_neg, one_div]
        _ ≤ _ := by gcongr
    linarith
  · have h2 : (1 : ℚ) ≤ i := by
      have : 1 ≤ i := by omega
      exact_mod_cast this
    linarith

/-- The value before the exponent is applied. -/
theorem mantissa_near (log : MathLog10) {i f : Int} (hi0 : 0 ≤ i) (hi : i < 2 ^ 63) (hf0 : 0 ≤ f) (hf : f < 2 ^ 63) :
    ∃ q, (if f ≠ 0 then (F64.round i).add ((F64.round f).div (pow10 (log.shift f))) else F64.round i) = .fin q ∧
      Near 3 q (mantissa i f (log.shift f)) := by
  obtain ⟨qi, hqi, hni⟩ := round_nat hi0 hi
  have hi0' : (0 : ℚ) ≤ i := by exact_mod_cast hi0
  unfold mantissa
  split_ifs with hc
  · obtain ⟨hs0, hs1⟩ := log.shift_bounds (f := f) (by omega) hf
    obtain ⟨qf, hqf, hnf⟩ := round_nat hf0 hf
    have hf1 : (1 : ℚ) ≤ f := by
      have : 1 ≤ f := by omega
      exact_mod_cast this
    generalize log.shift f = s at hs0 hs1
    have hp := pow10_small s.toNat (List.mem_range.2 (by omega))
    rw [Int.toNat_of_nonneg hs0, ← zpow_natCast, Int.toNat_of_nonneg hs0] at hp
    have hps := ten_pos s
    have hd : Near 1 (qf / 10 ^ s) (f / 10 ^ s) := hnf.div (Near.refl _) (by linarith) hps
    have hx : (10 : ℚ) ^ (-20 : Int) ≤ (f : ℚ) / 10 ^ s := by
      calc (10 : ℚ) ^ (-20 : Int) ≤ 10 ^ (-s) := ten_le (by omega)
        _ = 1 / 10 ^ s := by rw [zpow_neg, one_div]
        _ ≤ _ := by gcongr
    have hx2 : (f : ℚ) / 10 ^ s ≤ 2 ^ 63 := (div_le_self (by linarith) (one_le_zpow₀ (by norm_num) hs0)).trans (by exact_mod_cast hf.le)
    have hlow : (2 : ℚ) ^ (-1022 : Int) * 2 ≤ 10 ^ (-20 : Int) := by decide +kernel
    have hx0 : 0 ≤ (f : ℚ) / 10 ^ s := le_trans (ten_pos _).le hx
    have hi2 : (i : ℚ) ≤ 2 ^ 63 := by exact_mod_cast hi.le
    obtain ⟨qd, hqd, hnd⟩ := round_near (x := qf / 10 ^ s) (.inr (hd.ge (by omega) hx0 (hlow.trans hx)))
      (hd.le (by omega) hx0 (le_trans (by norm_num at hx2 ⊢; linarith) (two_pow_le (a := 64) (by norm_num))))
    have hsum := (hni.mono (n := 2) (by omega) hi0').add (hnd.trans hd)
    have hs0 : 0 ≤ (i : ℚ) + (f : ℚ) / 10 ^ s := add_nonneg hi0' hx0
    obtain ⟨qs, hqs, hns⟩ := round_near (x := qi + qd) (.inr (hsum.ge (by omega) hs0 (hlow.trans (by linarith))))
      (hsum.le (by omega) hs0 (le_trans (by norm_num at hx2 hi2 ⊢; linarith) (two_pow_le (a := 66) (by norm_num))))
    refine ⟨qs, ?_, hns.trans hsum⟩
    rw [hqi, hqf, hp, div, if_neg hps.ne', hqd]
    exact hqs
  · exact ⟨qi, hqi, hni.mono (by omega) hi0'⟩

theorem realFloat_eq (log : MathLog10) (i f e : Int) : realFloat log i f e =
    if e ≠ 0 then (if f ≠ 0 then (F64.round i).add ((F64.round f).div (pow10 (log.shift f))) else F64.round i).mul (pow10 e)
    else (if f ≠ 0 then (F64.round i).add ((F64.round f).div (pow10 (log.shift f))) else F64.round i) := rfl

/-- The float64 against the exact value. -/
theorem realFloat_near (log : MathLog10) {i f e : Int} (hi0 : 0 ≤ i) (hi : i < 2 ^ 63) (hf0 : 0 ≤ f) (hf : f < 2 ^ 63)
    (he : -307 ≤ e) (he' : e ≤ 308) (hlow : mantissa i f (log.shift f) = 0 ∨ 2 ^ (-1021 : Int) ≤ mantissa i f (log.shift f) * 10 ^ e)
    (hhigh : mantissa i f (log.shift f) * 10 ^ e ≤ 2 ^ (1023 : Int)) :
    ∃ q, realFloat log i f e = .fin q ∧ Near 7 q (mantissa i f (log.shift f) * 10 ^ e) := by
  obtain ⟨q, hq, hn⟩ := mantissa_near log hi0 hi hf0 hf
  have hm := mantissa_nonneg (s := log.shift f) hi0 hf0
  rw [realFloat_eq, hq]
  split_ifs with hc
  · obtain ⟨p, hp, hnp⟩ := pow10_near he he'
    have hpr := hn.mul hnp hm (ten_pos e).le
    have hx := mul_nonneg hm (ten_pos e).le
    obtain ⟨r, hr, hnr⟩ := round_near' (x := q * p)
      (by
        rcases hlow with h | h
        · left
          have h1 := hpr.high
          rw [h, zero_mul, zero_mul] at h1
          exact le_antisymm h1 (hpr.nonneg hx)
        · right
          have hu : unit ^ (3 + 3) ≤ 2 := by norm_num [unit]
          have h1 : q * p * unit ^ (3 + 3) ≤ q * p * 2 := mul_le_mul_of_nonneg_left hu (hpr.nonneg hx)
          have h2 : (2 : ℚ) ^ (-1022 : Int) * 2 = 2 ^ (-1021 : Int) := by rw [← zpow_add_one₀ (by norm_num)]; congr 1
          linarith [hpr.low])
      (by
        have hu : unit ^ 7 < 2 := by norm_num [unit]
        rw [← big_eq]
        calc q * p * unit ≤ mantissa i f (log.shift f) * 10 ^ e * unit ^ (3 + 3) * unit := mul_le_mul_of_nonneg_right hpr.high unit_pos.le
          _ = mantissa i f (log.shift f) * 10 ^ e * unit ^ 7 := by ring
          _ ≤ 2 ^ (1023 : Int) * unit ^ 7 := mul_le_mul_of_nonneg_right hhigh (pow_pos unit_pos 7).le
          _ < 2 ^ (1023 : Int) * 2 := (mul_lt_mul_iff_right₀ (two_zpow_pos 1023)).2 hu
          _ = _ := by rw [← zpow_add_one₀ (by norm_num), show (1023 : Int) + 1 = 1024 by norm_num])
    refine ⟨r, ?_, hnr.trans hpr⟩
    rw [hp]
    exact hr
  · have : e = 0 := by omega
    subst this
    rw [zpow_zero, mul_one]
    exact ⟨q, rfl, hn.mono (by omega) hm⟩

/-- Numbers up to 2^1023 are finite. -/
theorem round_finite {x : ℚ} (h : |x| ≤ 2 ^ (1023 : Int)) : ∃ q, F64.round x = .fin q := by
  rcases eq_or_ne x 0 with rfl | h0
  · exact ⟨0, round_zero⟩
  · have hx : 0 < |x| := abs_pos.2 h0
    have h1 : binaryExponent |x| ≤ 1023 := binaryExponent_le hx (h.trans_lt ((zpow_lt_zpow_iff_right₀ (by norm_num)).2 (by norm_num)))
    have h2 : lastBit x - 1 ≤ 1022 := by unfold lastBit; omega
    have h3 := (rounded_close x).trans (two_le h2)
    have h4 : |rounded x| ≤ |x| + |rounded x - x| := by
      have := abs_add_le x (rounded x - x)
      rwa [add_sub_cancel] at this
    refine ⟨rounded x, ?_⟩
    rw [round_eq, if_pos]
    rw [← big_eq]
    have h5 : (2 : ℚ) ^ (1022 : Int) < 2 ^ (1023 : Int) := (zpow_lt_zpow_iff_right₀ (by norm_num)).2 (by norm_num)
    calc |rounded x| ≤ 2 ^ (1023 : Int) + 2 ^ (1022 : Int) := h4.trans (add_le_add h h3)
      _ < 2 ^ (1023 : Int) + 2 ^ (1023 : Int) := (add_lt_add_iff_left _).2 h5
      _ = 2 ^ (1023 : Int) * 2 := (mul_two _).symm
      _ = _ := by rw [← zpow_add_one₀ (by norm_num), show (1023 : Int) + 1 = 1024 by norm_num]

/-- Whether a float64 is a number between 0 and 1. -/
def smallCheck : F64 → Bool
  | .fin q => decide (0 ≤ q) && decide (q ≤ 1)
  | _ => false

theorem smallCheck_sound {a : F64} (h : smallCheck a = true) : ∃ q, a = .fin q ∧ 0 ≤ q ∧ q ≤ 1 := by
  cases a with
  | fin q =>
    simp only [smallCheck, Bool.and_eq_true, decide_eq_true_eq] at h
    exact ⟨q, rfl, h.1, h.2⟩
  | _ => simp [smallCheck] at h

theorem pow10_tiny : ∀ n ∈ List.range 16, smallCheck (pow10 (-323 + (n : Int))) = true := by decide +kernel

theorem pow10_under {n : Int} (h : n < -323) : pow10 n = .fin 0 := by
  unfold pow10
  rw [if_neg (by omega), if_neg (by omega), if_neg (by omega)]

theorem pow10_over {n : Int} (h : 308 < n) : pow10 n = .inf false := by
  unfold pow10
  rw [if_neg (by omega), if_neg (by omega), if_pos (by omega)]

theorem pow10_finite {n : Int} (h : n ≤ 288) : ∃ q, pow10 n = .fin q ∧ 0 ≤ q ∧ q ≤ 2 ^ (958 : Int) := by
  have h1 : (1 : ℚ) ≤ 2 ^ (958 : Int) := one_le_zpow₀ (by norm_num) (by norm_num)
  by_cases hc : -307 ≤ n
  · obtain ⟨q, hq, hn⟩ := pow10_near hc (by omega)
    refine ⟨q, hq, hn.nonneg (ten_pos n).le, hn.le (by omega) (ten_pos n).le ?_⟩
    have : (10 : ℚ) ^ (288 : Int) * 2 ≤ 2 ^ (958 : Int) := by decide +kernel
    exact le_trans (mul_le_mul_of_nonneg_right (ten_le h) two_pos.le) this
  · by_cases hc' : -323 ≤ n
    · obtain ⟨q, hq, h2, h3⟩ := smallCheck_sound (pow10_tiny (n + 323).toNat (List.mem_range.2 (by omega)))
      rw [show -323 + ((n + 323).toNat : Int) = n by omega] at hq
      exact ⟨q, hq, h2, h3.trans h1⟩
    · exact ⟨0, pow10_under (by omega), le_rfl, two_zpow_pos _ |>.le⟩

theorem shift_nonneg (log : MathLog10) {f : Int} (hf0 : 0 ≤ f) (hf : f < 2 ^ 63) (h : f ≠ 0) : 0 ≤ log.shift f ∧ log.shift f ≤ 20 :=
  log.shift_bounds (by omega) hf

theorem mantissa_bound (log : MathLog10) {i f : Int} (hi : i < 2 ^ 63) (hf0 : 0 ≤ f) (hf : f < 2 ^ 63) : mantissa i f (log.shift f) ≤ 2 ^ 64 := by
  by_cases h : f = 0
  · subst h
    have : (i : ℚ) ≤ 2 ^ 63 := by exact_mod_cast hi.le
    simp only [mantissa, ne_eq, not_true_eq_false, if_false]
    norm_num at this ⊢
    linarith
  · exact mantissa_le hi hf0 hf (shift_nonneg log hf0 hf h).1

theorem mantissa_pos (log : MathLog10) {i f : Int} (hi0 : 0 ≤ i) (hf0 : 0 ≤ f) (hf : f < 2 ^ 63) (h : i ≠ 0 ∨ f ≠ 0) :
    0 < mantissa i f (log.shift f) := by
  by_cases hf' : f = 0
  · subst hf'
    have : 0 < i := by omega
    simp only [mantissa, ne_eq, not_true_eq_false, if_false]
    exact_mod_cast this
  · exact (ten_pos _).trans_le (mantissa_low hi0 hf0 (shift_nonneg log hf0 hf hf').2 h)

/-- With exponents up to 288 the float64 is a number. -/
theorem realFloat_finite (log : MathLog10) {i f e : Int} (hi0 : 0 ≤ i) (hi : i < 2 ^ 63) (hf0 : 0 ≤ f) (hf : f < 2 ^ 63) (he : e ≤ 288) :
    ∃ q, realFloat log i f e = .fin q := by
  obtain ⟨q, hq, hn⟩ := mantissa_near log hi0 hi hf0 hf
  have hm := mantissa_nonneg (s := log.shift f) hi0 hf0
  rw [realFloat_eq, hq]
  split_ifs with hc
  · obtain ⟨p, hp, hp0, hp1⟩ := pow10_finite he
    have hq0 := hn.nonneg hm
    have hq1 : q ≤ 2 ^ (65 : Int) := hn.le (by omega) hm
      (le_trans (mul_le_mul_of_nonneg_right (mantissa_bound log hi hf0 hf) two_pos.le) (by norm_num))
    rw [hp]
    refine round_finite ?_
    rw [abs_of_nonneg (mul_nonneg hq0 hp0)]
    refine (mul_le_mul hq1 hp1 hp0 (two_zpow_pos _).le).trans ?_
    rw [← zpow_add₀ (by norm_num)]
    exact two_le (by norm_num)
  · exact ⟨q, rfl⟩

/-- With exponents over 308 it is none. -/
theorem realFloat_over (log : MathLog10) {i f e : Int} (hi0 : 0 ≤ i) (hi : i < 2 ^ 63) (hf0 : 0 ≤ f) (hf : f < 2 ^ 63) (he : 308 < e) :
    realFloat log i f e = if i = 0 ∧ f = 0 then .nan else .inf false := by
  obtain ⟨q, hq, hn⟩ := mantissa_near log hi0 hi hf0 hf
  have hm := mantissa_nonneg (s := log.shift f) hi0 hf0
  rw [realFloat_eq, hq, if_pos (by omega), pow10_over he]
  split_ifs with h
  · obtain ⟨rfl, rfl⟩ := h
    have h0 : mantissa 0 0 (log.shift 0) = 0 := by simp [mantissa]
    rw [h0] at hn
    have h1 := hn.high
    rw [zero_mul] at h1
    have h2 : q = 0 := le_antisymm h1 (hn.nonneg le_rfl)
    rw [h2]
    rfl
  · have hp := hn.pos (mantissa_pos log hi0 hf0 hf (by omega))
    simp only [mul, hp.ne', if_false]
    rw [decide_eq_false (not_lt.2 hp.le)]
    rfl

/-- With exponents under -323 it is zero. -/
theorem realFloat_under (log : MathLog10) {i f e : Int} (hi0 : 0 ≤ i) (hi : i < 2 ^ 63) (hf0 : 0 ≤ f) (hf : f < 2 ^ 63) (he : e < -323) :
    realFloat log i f e = .fin 0 := by
  obtain ⟨q, hq, hn⟩ := mantissa_near log hi0 hi hf0 hf
  rw [realFloat_eq, hq, if_pos (by omega), pow10_under he]
  simp only [mul, mul_zero, round_zero]

/-- Values over the range of float64 become infinite. -/
theorem realFloat_big (log : MathLog10) {i f e : Int} (hi0 : 0 ≤ i) (hi : i < 2 ^ 63) (hf0 : 0 ≤ f) (hf : f < 2 ^ 63) (he : e ≤ 308)
    (hbig : 2 ^ (1024 : Int) * unit ^ 7 ≤ mantissa i f (log.shift f) * 10 ^ e) : realFloat log i f e = .inf false := by
  have hm := mantissa_nonneg (s := log.shift f) hi0 hf0
  have hu7 := pow_pos unit_pos 7
  have he0 : 288 < e := by
    by_contra hc
    have h1 : mantissa i f (log.shift f) * 10 ^ e ≤ 2 ^ 64 * 10 ^ (288 : Int) :=
      mul_le_mul (mantissa_bound log hi hf0 hf) (ten_le (not_lt.1 hc)) (ten_pos _).le (by positivity)
    have h2 : (2 : ℚ) ^ 64 * 10 ^ (288 : Int) < 2 ^ (1024 : Int) * unit ^ 7 := by decide +kernel
    exact absurd (hbig.trans h1) (not_le.2 h2)
  obtain ⟨q, hq, hn⟩ := mantissa_near log hi0 hi hf0 hf
  obtain ⟨p, hp, hnp⟩ := pow10_near (n := e) (by omega) he
  have hpr := hn.mul hnp hm (ten_pos e).le
  have hx := mul_nonneg hm (ten_pos e).le
  have hl : 2 ^ (1024 : Int) * unit ≤ q * p := by
    have h1 : 2 ^ (1024 : Int) * unit * unit ^ (3 + 3) ≤ q * p * unit ^ (3 + 3) := by
      refine le_trans (le_of_eq ?_) (hbig.trans hpr.low)
      ring
    exact le_of_mul_le_mul_right h1 (pow_pos unit_pos _)
  have hpos : 0 < q * p := (mul_pos (two_zpow_pos _) unit_pos).trans_le hl
  rw [realFloat_eq, hq, if_pos (by omega), hp]
  have hn2 : Near 1 (rounded (q * p)) (q * p) := near_rounded (.inr (one_normal (le_trans (by
    have h1 : (1 : ℚ) ≤ 2 ^ (1024 : Int) := one_le_zpow₀ (by norm_num) (by norm_num)
    have h2 := one_le_unit 1
    rw [pow_one] at h2
    exact one_le_mul_of_one_le_of_one_le h1 h2) hl)))
  simp only [mul]
  rw [round_eq, if_neg, decide_eq_false (not_lt.2 hpos.le)]
  rw [abs_of_nonneg (hn2.nonneg hpos.le), not_lt, ← big_eq]
  have h1 : 2 ^ (1024 : Int) * unit ≤ rounded (q * p) * unit := hl.trans (by simpa using hn2.low)
  exact le_of_mul_le_mul_right h1 unit_pos

/-- There are functions as assumed of `math.Log10`. -/
theorem mathLog10_exists : Nonempty MathLog10 := by
  refine ⟨⟨fun x => if x = 1 then 0 else (⌊Real.logb 10 (x : ℝ) * 2 ^ 46⌋ : ℚ) / 2 ^ 46, fun x h1 _ => ?_, by simp⟩⟩
  by_cases h : x = 1
  · subst h
    simp
  · simp only [h, if_false]
    push_cast
    have h2 := Int.floor_le (Real.logb 10 (x : ℝ) * 2 ^ 46)
    have h3 := Int.lt_floor_add_one (Real.logb 10 (x : ℝ) * 2 ^ 46)
    have hp : (0 : ℝ) < 2 ^ 46 := by positivity
    rw [abs_le]
    constructor
    · rw [le_sub_iff_add_le, le_div_iff₀ hp, add_mul, neg_mul, div_mul_cancel₀ _ hp.ne']
      linarith
    · rw [sub_le_iff_le_add, div_le_iff₀ hp, add_mul, div_mul_cancel₀ _ hp.ne']
      linarith

end Asn1go
