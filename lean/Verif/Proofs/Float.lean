import Mathlib.Tactic.Linarith
import Mathlib.Tactic.Positivity
import Mathlib.Tactic.NormNum
import Mathlib.Tactic.FieldSimp
import Mathlib.Tactic.Ring
import Verif.Model.Float
import Verif.Spec.Float

/-! Facts about the arithmetic of float64. -/

namespace Asn1go

theorem roundEven_close (y : ℚ) : |(roundEven y : ℚ) - y| ≤ 1 / 2 := by
  have h0 := Int.floor_le y
  have h1 := Int.lt_floor_add_one y
  unfold roundEven
  split_ifs with h2 h3 h4 <;> rw [abs_le] <;> push_cast <;> constructor <;> linarith

theorem roundEven_int (n : Int) : roundEven (n : ℚ) = n := by simp [roundEven]

theorem roundEven_nonneg {y : ℚ} (h : 0 ≤ y) : 0 ≤ roundEven y := by
  have h0 : 0 ≤ ⌊y⌋ := Int.floor_nonneg.2 h
  unfold roundEven
  split_ifs <;> omega

theorem roundEven_nonpos {y : ℚ} (h : y ≤ 0) : roundEven y ≤ 0 := by
  rcases h.eq_or_lt with rfl | h
  · simp [roundEven]
  · have h0 : ⌊y⌋ < 0 := Int.floor_lt.2 (by simpa using h)
    unfold roundEven
    split_ifs <;> omega

/-- The nearest integer is at least as near as any integer. -/
theorem roundEven_nearest (y : ℚ) (n : Int) : |(roundEven y : ℚ) - y| ≤ |(n : ℚ) - y| := by
  by_cases h : roundEven y = n
  · rw [h]
  · have h1 := roundEven_close y
    have h2 : (1 : ℚ) ≤ |(n : ℚ) - roundEven y| := by
      have : (1 : Int) ≤ |n - roundEven y| := Int.one_le_abs (by omega)
      exact_mod_cast this
    have h3 := abs_sub_le (n : ℚ) y (roundEven y)
    rw [abs_sub_comm y] at h3
    linarith

theorem binaryExponent_spec {q : ℚ} (h : 0 < q) : (2 : ℚ) ^ binaryExponent q ≤ q ∧ q < 2 ^ (binaryExponent q + 1) := by
  have hn : 0 < q.num := Rat.num_pos.2 h
  have hn' : q.num.natAbs ≠ 0 := by omega
  have h1 := Nat.log2_self_le hn'
  have h2 := @Nat.lt_log2_self q.num.natAbs
  have h3 := Nat.log2_self_le q.den_nz
  have h4 := @Nat.lt_log2_self q.den
  have hq : q = (q.num.natAbs : ℚ) / q.den := by
    conv_lhs => rw [← Rat.num_div_den q]
    congr 1
    rw [Nat.cast_natAbs, abs_of_pos hn]
  generalize hN : q.num.natAbs = N at *
  generalize hD : q.den = D at *
  generalize ha : Nat.log2 N = a at *
  generalize hb : Nat.log2 D = b at *
  have hD0 : (0 : ℚ) < D := by exact_mod_cast (hD ▸ q.den_pos)
  have h1' : (2 : ℚ) ^ a ≤ N := by exact_mod_cast h1
  have h2' : (N : ℚ) < 2 ^ (a + 1) := by exact_mod_cast h2
  have h3' : (2 : ℚ) ^ b ≤ D := by exact_mod_cast h3
  have h4' : (D : ℚ) < 2 ^ (b + 1) := by exact_mod_cast h4
  have hup : q < 2 ^ ((a : Int) - b + 1) := by
    rw [hq, div_lt_iff₀ hD0]
    calc (N : ℚ) < 2 ^ (a + 1) := h2'
      _ = 2 ^ ((a : Int) - b + 1) * 2 ^ b := by
        rw [← zpow_natCast, ← zpow_natCast, ← zpow_add₀ (by norm_num)]; congr 1; push_cast; ring
      _ ≤ _ := by gcongr
  have hlow : (2 : ℚ) ^ ((a : Int) - b - 1) ≤ q := by
    rw [hq, le_div_iff₀ hD0]
    calc (2 : ℚ) ^ ((a : Int) - b - 1) * D ≤ 2 ^ ((a : Int) - b - 1) * 2 ^ (b + 1) := by gcongr
      _ = 2 ^ a := by
        rw [← zpow_natCast, ← zpow_natCast, ← zpow_add₀ (by norm_num)]; congr 1; push_cast; ring
      _ ≤ _ := h1'
  unfold binaryExponent
  simp only [hN, hD, ha, hb]
  split_ifs with hc
  · exact ⟨hc, hup⟩
  · refine ⟨hlow, ?_⟩
    rw [sub_add_cancel]
    exact lt_of_not_ge hc

theorem two_zpow_pos (e : Int) : (0 : ℚ) < 2 ^ e := by positivity

theorem two_le {a b : Int} (h : a ≤ b) : (2 : ℚ) ^ a ≤ 2 ^ b := zpow_le_zpow_right₀ (by norm_num) h

theorem big_eq : (2 : ℚ) ^ (1024 : Int) = 2 ^ 1024 := zpow_natCast 2 1024

theorem binaryExponent_le {q : ℚ} {k : Int} (h : 0 < q) (hk : q < 2 ^ (k + 1)) : binaryExponent q ≤ k := by
  have h1 := (binaryExponent_spec h).1.trans_lt hk
  have := (zpow_lt_zpow_iff_right₀ (by norm_num : (1 : ℚ) < 2)).1 h1
  omega

theorem le_binaryExponent {q : ℚ} {k : Int} (hk : (2 : ℚ) ^ k ≤ q) : k ≤ binaryExponent q := by
  have h1 := hk.trans_lt (binaryExponent_spec ((two_zpow_pos k).trans_le hk)).2
  have := (zpow_lt_zpow_iff_right₀ (by norm_num : (1 : ℚ) < 2)).1 h1
  omega

namespace F64

/-- The rounded number, before the check for overflow. -/
def rounded (q : ℚ) : ℚ := roundEven (q / 2 ^ lastBit q) * 2 ^ lastBit q

theorem round_eq (q : ℚ) : round q = if |rounded q| < 2 ^ 1024 then .fin (rounded q) else .inf (decide (q < 0)) := rfl

theorem rounded_close (q : ℚ) : |rounded q - q| ≤ 2 ^ (lastBit q - 1) := by
  have h := roundEven_close (q / 2 ^ lastBit q)
  have hp := two_zpow_pos (lastBit q)
  have : rounded q - q = (roundEven (q / 2 ^ lastBit q) - q / 2 ^ lastBit q) * 2 ^ lastBit q := by
    unfold rounded; rw [sub_mul, div_mul_cancel₀ _ hp.ne']
  rw [this, abs_mul, abs_of_pos hp, zpow_sub_one₀ (by norm_num)]
  calc _ ≤ 1 / 2 * (2 : ℚ) ^ lastBit q := by gcongr
    _ = _ := by ring

theorem rounded_normal {q : ℚ} (h : 2 ^ (-1022 : Int) ≤ |q|) : |rounded q - q| ≤ |q| / 2 ^ 53 := by
  have hq : 0 < |q| := (two_zpow_pos _).trans_le h
  have h1 := le_binaryExponent h
  have h2 : lastBit q = binaryExponent |q| - 52 := by unfold lastBit; omega
  refine (rounded_close q).trans ?_
  rw [h2, le_div_iff₀ (by positivity), ← zpow_natCast, ← zpow_add₀ (by norm_num)]
  refine le_trans (le_of_eq ?_) (binaryExponent_spec hq).1
  congr 1
  push_cast
  ring

theorem rounded_zero : rounded 0 = 0 := by simp [rounded, roundEven]

theorem round_zero : round 0 = .fin 0 := by rw [round_eq, rounded_zero]; simp

theorem rounded_nonneg {q : ℚ} (h : 0 ≤ q) : 0 ≤ rounded q := by
  have := roundEven_nonneg (div_nonneg h (two_zpow_pos (lastBit q)).le)
  unfold rounded
  exact mul_nonneg (by exact_mod_cast this) (two_zpow_pos _).le

/-- Numbers that fit are themselves. -/
theorem rounded_exact {q : ℚ} {m : Int} {e : Int} (hq : q = m * 2 ^ e) (he : lastBit q ≤ e) : rounded q = q := by
  have hp := two_zpow_pos (lastBit q)
  obtain ⟨k, hk⟩ := Int.eq_ofNat_of_zero_le (sub_nonneg.2 he)
  have h1 : q / 2 ^ lastBit q = ((m * 2 ^ k : Int) : ℚ) := by
    rw [div_eq_iff hp.ne']
    push_cast
    conv_lhs => rw [hq]
    rw [mul_assoc, ← zpow_natCast, ← zpow_add₀ (by norm_num)]
    congr 2
    omega
  unfold rounded
  rw [h1, roundEven_int, ← h1, div_mul_cancel₀ _ hp.ne']

theorem round_int {n : Int} (h : |n| < 2 ^ 53) : round n = .fin n := by
  rcases eq_or_ne n 0 with rfl | h0
  · simpa using round_zero
  · have hn : (0 : ℚ) < |(n : ℚ)| := by positivity
    have h' : |(n : ℚ)| < 2 ^ ((52 : Int) + 1) := by norm_num; exact_mod_cast h
    have h1 : rounded (n : ℚ) = n := rounded_exact (m := n) (e := 0) (by simp) (by
      have := binaryExponent_le hn h'
      unfold lastBit; omega)
    rw [round_eq, h1, if_pos]
    rw [← big_eq]
    exact h'.trans_le (two_le (by norm_num))

/-- The error of one rounding, as a factor. -/
def unit : ℚ := 1 + 1 / 2 ^ 52

theorem unit_pos : 0 < unit := by norm_num [unit]

theorem one_le_unit (k : ℕ) : 1 ≤ unit ^ k := one_le_pow₀ (by norm_num [unit])

/-- `q` is `x` after `k` roundings. -/
structure Near (k : ℕ) (q x : ℚ) : Prop where
  low : x ≤ q * unit ^ k
  high : q ≤ x * unit ^ k

theorem Near.refl (x : ℚ) : Near 0 x x := ⟨by simp, by simp⟩

theorem Near.mono {k n : ℕ} {q x : ℚ} (h : Near k q x) (hk : k ≤ n) (hx : 0 ≤ x) : Near n q x := by
  have hq : 0 ≤ q := by
    by_contra hc
    have := mul_neg_of_neg_of_pos (lt_of_not_ge hc) (pow_pos unit_pos k)
    linarith [h.low]
  have hu : unit ^ k ≤ unit ^ n := pow_le_pow_right₀ (by norm_num [unit]) hk
  exact ⟨h.low.trans (by gcongr), h.high.trans (by gcongr)⟩

theorem Near.nonneg {k : ℕ} {q x : ℚ} (h : Near k q x) (hx : 0 ≤ x) : 0 ≤ q := by
  by_contra hc
  have := mul_neg_of_neg_of_pos (lt_of_not_ge hc) (pow_pos unit_pos k)
  linarith [h.low]

theorem Near.pos {k : ℕ} {q x : ℚ} (h : Near k q x) (hx : 0 < x) : 0 < q := by
  rcases (h.nonneg hx.le).eq_or_lt with h0 | h0
  · have := h.low
    rw [← h0] at this
    linarith
  · exact h0

theorem Near.add {k : ℕ} {q x q' x' : ℚ} (h : Near k q x) (h' : Near k q' x') : Near k (q + q') (x + x') :=
  ⟨by linarith [h.low, h'.low, add_mul q q' (unit ^ k)], by linarith [h.high, h'.high, add_mul x x' (unit ^ k)]⟩

theorem Near.mul {k n : ℕ} {q x q' x' : ℚ} (h : Near k q x) (h' : Near n q' x') (hx : 0 ≤ x) (hx' : 0 ≤ x') : Near (k + n) (q * q') (x * x') := by
  have hq := h.nonneg hx
  have hq' := h'.nonneg hx'
  have hk := pow_pos unit_pos k
  constructor
  · calc x * x' ≤ (q * unit ^ k) * (q' * unit ^ n) := mul_le_mul h.low h'.low hx' (by positivity)
      _ = _ := by rw [pow_add]; ring
  · calc q * q' ≤ (x * unit ^ k) * (x' * unit ^ n) := mul_le_mul h.high h'.high hq' (by positivity)
      _ = _ := by rw [pow_add]; ring

theorem Near.inv {k : ℕ} {q x : ℚ} (h : Near k q x) (hx : 0 < x) : Near k q⁻¹ x⁻¹ := by
  have hq := h.pos hx
  constructor
  · rw [inv_le_iff_one_le_mul₀ hx, mul_comm, ← mul_assoc, mul_comm, ← mul_assoc, ← div_eq_mul_inv, le_div_iff₀ hq]
    linarith [h.high]
  · rw [inv_le_iff_one_le_mul₀ hq, mul_comm, ← mul_assoc, mul_comm, ← mul_assoc, ← div_eq_mul_inv, le_div_iff₀ hx]
    linarith [h.low]

theorem Near.div {k n : ℕ} {q x q' x' : ℚ} (h : Near k q x) (h' : Near n q' x') (hx : 0 ≤ x) (hx' : 0 < x') : Near (k + n) (q / q') (x / x') := by
  rw [div_eq_mul_inv, div_eq_mul_inv]
  exact h.mul (h'.inv hx') hx (inv_nonneg.2 hx'.le)

theorem Near.trans {k n : ℕ} {q x y : ℚ} (h : Near k q x) (h' : Near n x y) : Near (k + n) q y := by
  have hk := pow_pos unit_pos k
  have hn := pow_pos unit_pos n
  constructor
  · calc y ≤ x * unit ^ n := h'.low
      _ ≤ (q * unit ^ k) * unit ^ n := by gcongr; exact h.low
      _ = _ := by rw [pow_add]; ring
  · calc q ≤ x * unit ^ k := h.high
      _ ≤ (y * unit ^ n) * unit ^ k := by gcongr; exact h'.high
      _ = _ := by rw [pow_add]; ring

/-- A rounding. -/
theorem near_rounded {x : ℚ} (h : x = 0 ∨ 2 ^ (-1022 : Int) ≤ x) : Near 1 (rounded x) x := by
  rcases h with rfl | h
  · rw [rounded_zero]
    exact (Near.refl 0).mono (by omega) le_rfl
  · have hx : 0 < x := (two_zpow_pos _).trans_le h
    have h1 := rounded_normal (q := x) (by rwa [abs_of_pos hx])
    rw [abs_of_pos hx, abs_le] at h1
    constructor
    · rw [pow_one]
      have h2 : x * (1 - 1 / 2 ^ 53) ≤ rounded x := by linarith
      calc x ≤ x * ((1 - 1 / 2 ^ 53) * unit) := le_mul_of_one_le_right hx.le (by norm_num [unit])
        _ = x * (1 - 1 / 2 ^ 53) * unit := by ring
        _ ≤ _ := by gcongr; exact unit_pos.le
    · rw [pow_one]
      calc rounded x ≤ x * (1 + 1 / 2 ^ 53) := by linarith
        _ ≤ _ := by gcongr; norm_num [unit]

theorem round_near' {x : ℚ} (h : x = 0 ∨ 2 ^ (-1022 : Int) ≤ x) (hx : x * unit < 2 ^ 1024) :
    ∃ q, round x = .fin q ∧ Near 1 q x := by
  have h1 := near_rounded h
  have h0 : 0 ≤ x := h.elim (fun h => h.ge) fun h => (two_zpow_pos _).le.trans h
  refine ⟨_, ?_, h1⟩
  rw [round_eq, if_pos]
  rw [abs_of_nonneg (h1.nonneg h0)]
  exact h1.high.trans_lt (by rwa [pow_one])

theorem round_near {x : ℚ} (h : x = 0 ∨ 2 ^ (-1022 : Int) ≤ x) (hx : x ≤ 2 ^ (1023 : Int)) :
    ∃ q, round x = .fin q ∧ Near 1 q x := by
  refine round_near' h ?_
  rw [← big_eq]
  calc x * unit ≤ 2 ^ (1023 : Int) * unit := mul_le_mul_of_nonneg_right hx unit_pos.le
    _ < 2 ^ (1023 : Int) * 2 := (mul_lt_mul_iff_right₀ (two_zpow_pos 1023)).2 (by norm_num [unit])
    _ = _ := by rw [← zpow_add_one₀ (by norm_num), show (1023 : Int) + 1 = 1024 by norm_num]

/-- Many roundings. -/
theorem Near.error {k : ℕ} {q x : ℚ} (h : Near k q x) (hk : k ≤ 7) (hx : 0 ≤ x) : |q - x| ≤ x / 2 ^ 49 := by
  have h' := h.mono hk hx
  have hq := h.nonneg hx
  have hu : unit ^ 7 ≤ 1 + 1 / 2 ^ 49 := by norm_num [unit]
  have h1 : x ≤ q * (1 + 1 / 2 ^ 49) := h'.low.trans (by gcongr)
  have h2 : q ≤ x * (1 + 1 / 2 ^ 49) := h'.high.trans (by gcongr)
  rw [abs_le]
  constructor
  · by_cases hc : q ≤ x
    · linarith
    · have : 0 ≤ x / 2 ^ 49 := by positivity
      linarith
  · linarith

theorem ten_le {a b : Int} (h : a ≤ b) : (10 : ℚ) ^ a ≤ 10 ^ b := zpow_le_zpow_right₀ (by norm_num) h

theorem ten_pos (a : Int) : (0 : ℚ) < 10 ^ a := by positivity

theorem ten_high : (10 : ℚ) ^ (308 : Int) * unit ^ 3 < 2 ^ 1024 := by decide +kernel

theorem ten_low : (2 : ℚ) ^ (-1022 : Int) * unit ^ 2 ≤ 10 ^ (-307 : Int) := by decide +kernel

/-- Constants of the tables of `math.Pow10`. -/
theorem ten_round {n : Int} (h1 : -307 ≤ n) (h2 : n ≤ 308) : ∃ q, round (10 ^ n) = .fin q ∧ Near 1 q (10 ^ n) := by
  refine round_near' (.inr ?_) ?_
  · exact le_trans (le_trans (le_mul_of_one_le_right (two_zpow_pos _).le (one_le_unit 2)) ten_low) (ten_le h1)
  · refine lt_of_le_of_lt ?_ ten_high
    have h3 : unit ^ 1 ≤ unit ^ 3 := pow_le_pow_right₀ (by norm_num [unit]) (by norm_num)
    rw [pow_one] at h3
    exact mul_le_mul (ten_le h2) h3 unit_pos.le (ten_pos _).le

/-- `math.Pow10` is near the power. -/
theorem pow10_near {n : Int} (h1 : -307 ≤ n) (h2 : n ≤ 308) : ∃ q, pow10 n = .fin q ∧ Near 3 q (10 ^ n) := by
  unfold pow10
  have hu2 := pow_pos unit_pos 2
  have hu3 := pow_pos unit_pos 3
  split_ifs with hc hc'
  · obtain ⟨q, e, h⟩ := ten_round (n := 32 * (n / 32)) (by omega) (by omega)
    obtain ⟨q', e', h'⟩ := ten_round (n := n % 32) (by omega) (by omega)
    have hm := h.mul h' (ten_pos _).le (ten_pos _).le
    rw [← zpow_add₀ (by norm_num), Int.mul_ediv_add_emod] at hm
    have hq : q * q' * unit < 2 ^ 1024 := by
      refine lt_of_le_of_lt ?_ ten_high
      calc q * q' * unit ≤ 10 ^ n * unit ^ 2 * unit := mul_le_mul_of_nonneg_right hm.high unit_pos.le
        _ = 10 ^ n * unit ^ 3 := by ring
        _ ≤ _ := mul_le_mul_of_nonneg_right (ten_le hc.2) hu3.le
    have hl : 2 ^ (-1022 : Int) ≤ q * q' := by
      have h3 : (2 : ℚ) ^ (-1022 : Int) * unit ^ 2 ≤ q * q' * unit ^ 2 := ten_low.trans ((ten_le h1).trans hm.low)
      exact le_of_mul_le_mul_right h3 hu2
    obtain ⟨q2, e2, h3⟩ := round_near' (.inr hl) hq
    refine ⟨q2, ?_, h3.trans hm⟩
    rw [e, e']
    exact e2
  · obtain ⟨q, e, h⟩ := ten_round (n := -(32 * (-n / 32))) (by omega) (by omega)
    obtain ⟨q', e', h'⟩ := ten_round (n := -n % 32) (by omega) (by omega)
    have hm := h.div h' (ten_pos _).le (ten_pos _)
    rw [← zpow_sub₀ (by norm_num), show -(32 * (-n / 32)) - -n % 32 = n by omega] at hm
    have hq : q / q' * unit < 2 ^ 1024 := by
      refine lt_of_le_of_lt ?_ ten_high
      calc q / q' * unit ≤ 10 ^ n * unit ^ 2 * unit := mul_le_mul_of_nonneg_right hm.high unit_pos.le
        _ = 10 ^ n * unit ^ 3 := by ring
        _ ≤ _ := mul_le_mul_of_nonneg_right (ten_le h2) hu3.le
    have hl : 2 ^ (-1022 : Int) ≤ q / q' := by
      have h3 : (2 : ℚ) ^ (-1022 : Int) * unit ^ 2 ≤ q / q' * unit ^ 2 := ten_low.trans ((ten_le h1).trans hm.low)
      exact le_of_mul_le_mul_right h3 hu2
    obtain ⟨q2, e2, h3⟩ := round_near' (.inr hl) hq
    refine ⟨q2, ?_, h3.trans hm⟩
    rw [e, e', div, if_neg (h'.pos (ten_pos _)).ne']
    exact e2
  · omega
  · omega

theorem pow10_small : ∀ n ∈ List.range 23, pow10 n = .fin (10 ^ n) := by decide +kernel

/-- What is rounded is a float64. -/
theorem rounded_isFloat {x : ℚ} (h : |rounded x| < 2 ^ 1024) : Spec.IsFloat64 (rounded x) := by
  rcases eq_or_ne x 0 with rfl | h0
  · rw [rounded_zero]
    exact ⟨0, 0, by norm_num, by norm_num, by norm_num, by simp⟩
  have hx : 0 < |x| := abs_pos.2 h0
  obtain ⟨hb1, hb2⟩ := binaryExponent_spec hx
  have hp := two_zpow_pos (lastBit x)
  have hy : |x / 2 ^ lastBit x| < 2 ^ 53 := by
    rw [abs_div, abs_of_pos hp, div_lt_iff₀ hp]
    refine hb2.trans_le ?_
    rw [← zpow_natCast, ← zpow_add₀ (by norm_num)]
    refine two_le ?_
    unfold lastBit
    push_cast
    omega
  have hm : |roundEven (x / 2 ^ lastBit x)| ≤ 2 ^ 53 := by
    have h1 := roundEven_close (x / 2 ^ lastBit x)
    have h2 : |(roundEven (x / 2 ^ lastBit x) : ℚ)| < 2 ^ 53 + 1 := by
      have := abs_sub_abs_le_abs_sub (roundEven (x / 2 ^ lastBit x) : ℚ) (x / 2 ^ lastBit x)
      linarith
    have h3 : |roundEven (x / 2 ^ lastBit x)| < 2 ^ 53 + 1 := by exact_mod_cast h2
    omega
  have he0 : -1074 ≤ lastBit x := by unfold lastBit; omega
  rw [← big_eq] at h
  have he1 : lastBit x ≤ 971 := by
    by_contra hc
    have hl : lastBit x = binaryExponent |x| - 52 := by unfold lastBit at hc ⊢; omega
    have h1 : (2 : ℚ) ^ 52 ≤ |x / 2 ^ lastBit x| := by
      rw [abs_div, abs_of_pos hp, le_div_iff₀ hp]
      refine le_trans (le_of_eq ?_) hb1
      rw [← zpow_natCast, ← zpow_add₀ (by norm_num)]
      congr 1
      push_cast
      omega
    have h2 : (2 : ℚ) ^ 52 ≤ |(roundEven (x / 2 ^ lastBit x) : ℚ)| := by
      rcases le_abs.1 h1 with h1 | h1
      · have h3 : ((2 ^ 52 : Int) : ℚ) ≤ x / 2 ^ lastBit x := by push_cast; exact h1
        have h4 : (2 ^ 52 : Int) ≤ ⌊x / 2 ^ lastBit x⌋ := Int.le_floor.2 h3
        have h5 : (2 ^ 52 : Int) ≤ roundEven (x / 2 ^ lastBit x) := by
          unfold roundEven
          split_ifs <;> omega
        exact le_trans (by exact_mod_cast h5) (le_abs_self _)
      · have h3 : x / 2 ^ lastBit x ≤ ((-2 ^ 52 : Int) : ℚ) := by push_cast; linarith
        have h4 : ⌊x / 2 ^ lastBit x⌋ ≤ -2 ^ 52 := by exact_mod_cast (Int.floor_le _).trans h3
        have h5 : roundEven (x / 2 ^ lastBit x) ≤ -2 ^ 52 := by
          rcases h4.eq_or_lt with h4 | h4
          · have h6 : x / 2 ^ lastBit x = ((-2 ^ 52 : Int) : ℚ) := le_antisymm h3 (by rw [← h4]; exact Int.floor_le _)
            rw [h6, roundEven_int]
          · unfold roundEven
            split_ifs <;> omega
        have h6 : (roundEven (x / 2 ^ lastBit x) : ℚ) ≤ -2 ^ 52 := by exact_mod_cast h5
        exact le_trans (by linarith) (neg_le_abs _)
    refine absurd h (not_lt.2 ?_)
    unfold rounded
    rw [abs_mul, abs_of_pos hp]
    calc (2 : ℚ) ^ (1024 : Int) = 2 ^ 52 * 2 ^ (972 : Int) := by rw [← zpow_natCast, ← zpow_add₀ (by norm_num)]; congr 1
      _ ≤ _ := mul_le_mul h2 (two_le (by omega)) (two_zpow_pos _).le (abs_nonneg _)
  rcases hm.lt_or_eq with hm | hm
  · exact ⟨_, lastBit x, hm, he0, he1, rfl⟩
  · have he2 : lastBit x ≠ 971 := by
      intro hc
      refine absurd h (not_lt.2 (le_of_eq ?_))
      unfold rounded
      have h1 : |(roundEven (x / 2 ^ lastBit x) : ℚ)| = 2 ^ 53 := by exact_mod_cast hm
      rw [abs_mul, abs_of_pos hp, h1, hc, ← zpow_natCast, ← zpow_add₀ (by norm_num)]
      congr 1
    have h2 : ∃ k, roundEven (x / 2 ^ lastBit x) = k * 2 ∧ |k| < 2 ^ 53 := by
      rcases abs_eq (by norm_num) |>.1 hm with h1 | h1
      · exact ⟨2 ^ 52, by rw [h1]; norm_num, by norm_num⟩
      · exact ⟨-2 ^ 52, by rw [h1]; norm_num, by norm_num⟩
    obtain ⟨k, hk, hk2⟩ := h2
    refine ⟨k, lastBit x + 1, hk2, by omega, by omega, ?_⟩
    unfold rounded
    rw [hk, zpow_add_one₀ (by norm_num)]
    push_cast
    ring

/-- None is nearer. -/
theorem rounded_nearest {x r : ℚ} (h : Spec.IsFloat64 r) : |rounded x - x| ≤ |r - x| := by
  rcases eq_or_ne x 0 with rfl | h0
  · rw [rounded_zero]
    simp
  have hx : 0 < |x| := abs_pos.2 h0
  have hp := two_zpow_pos (lastBit x)
  have hgrid : ∀ n : Int, |rounded x - x| ≤ |n * 2 ^ lastBit x - x| := fun n => by
    have h1 := roundEven_nearest (x / 2 ^ lastBit x) n
    have h2 : ∀ a : ℚ, |a * 2 ^ lastBit x - x| = |a - x / 2 ^ lastBit x| * 2 ^ lastBit x := fun a => by
      rw [← abs_of_pos hp, ← abs_mul, sub_mul, abs_of_pos hp, div_mul_cancel₀ _ hp.ne']
    unfold rounded
    rw [h2, h2]
    exact mul_le_mul_of_nonneg_right h1 hp.le
  obtain ⟨m, e, hm, he, -, rfl⟩ := h
  by_cases hc : lastBit x ≤ e
  · obtain ⟨k, hk⟩ := Int.eq_ofNat_of_zero_le (sub_nonneg.2 hc)
    have h1 : (m : ℚ) * 2 ^ e = ((m * 2 ^ k : Int) : ℚ) * 2 ^ lastBit x := by
      push_cast
      rw [mul_assoc, ← zpow_natCast, ← zpow_add₀ (by norm_num)]
      congr 2
      omega
    rw [h1]
    exact hgrid _
  · have hl : lastBit x = binaryExponent |x| - 52 := by unfold lastBit at hc ⊢; omega
    have hb := (binaryExponent_spec hx).1
    have hr : |(m : ℚ) * 2 ^ e| ≤ 2 ^ binaryExponent |x| := by
      rw [abs_mul, abs_of_pos (two_zpow_pos e)]
      have h1 : |(m : ℚ)| ≤ 2 ^ 53 := by exact_mod_cast hm.le
      refine (mul_le_mul_of_nonneg_right h1 (two_zpow_pos e).le).trans ?_
      rw [← zpow_natCast, ← zpow_add₀ (by norm_num)]
      refine two_le ?_
      push_cast
      omega
    have hg : (2 : ℚ) ^ binaryExponent |x| = ((2 ^ 52 : Int) : ℚ) * 2 ^ lastBit x := by
      rw [Int.cast_pow, Int.cast_ofNat, ← zpow_natCast, ← zpow_add₀ (by norm_num)]
      congr 1
      push_cast
      omega
    generalize binaryExponent |x| = k at hl hb hr hg
    rcases abs_cases x with ⟨ha, hs⟩ | ⟨ha, hs⟩
    · refine (hgrid (2 ^ 52)).trans ?_
      rw [← hg]
      have h1 := (abs_le.1 hr).2
      rw [ha] at hb
      rw [abs_of_nonpos (by linarith), abs_of_nonpos (by linarith)]
      linarith
    · refine (hgrid (-2 ^ 52)).trans ?_
      have hg' : (((-2 ^ 52 : Int)) : ℚ) * 2 ^ lastBit x = -2 ^ k := by rw [hg, Int.cast_neg, neg_mul]
      rw [hg']
      have h1 := (abs_le.1 hr).1
      have hb' : (2 : ℚ) ^ k ≤ -x := ha ▸ hb
      rw [abs_of_nonneg (by linarith), abs_of_nonneg (by linarith)]
      linarith

end F64

end Asn1go
