import Verif.Model.WsTime
import Verif.Spec.Calendar

/-! `time.Date` counts days. -/

namespace Asn1go

open Spec

/-- The numbers given to `time.Date` for a moment. -/
def fieldsOf (t : Moment) : TimeFields :=
  ⟨t.day.year, t.day.month, t.day.day, t.hour, t.min, t.sec, t.nsec⟩

/-- Days before a month in a common year. -/
def monthStart (m : Nat) : Int := daysBefore.getD (m - 1) 0

/-- Days of the years before. -/
def yearStart (y : Nat) : Int := 365 * ((y : Int) - 1) + ((y : Int) - 1) / 4 - ((y : Int) - 1) / 100 + ((y : Int) - 1) / 400 - 719162

/-- The number of a day. -/
def dayNumber (d : Day) : Int :=
  yearStart d.year + monthStart d.month + (if LeapYear d.year ∧ 3 ≤ d.month then 1 else 0) + d.day - 1

theorem leap_mod (y : Nat) : LeapYear y ↔ (y % 4 = 0 ∧ y % 100 ≠ 0) ∨ y % 400 = 0 := by
  unfold LeapYear; omega

theorem yearStart_succ (y : Nat) : yearStart (y + 1) = yearStart y + 365 + (if LeapYear y then 1 else 0) := by
  simp only [leap_mod, yearStart]
  split <;> omega

theorem monthStart_succ {m : Nat} (h1 : 1 ≤ m) (h2 : m < 12) (y : Nat) :
    monthStart (m + 1) + (if LeapYear y ∧ 3 ≤ m + 1 then 1 else 0) =
      monthStart m + (if LeapYear y ∧ 3 ≤ m then 1 else 0) + monthLength y m := by
  have : m = 1 ∨ m = 2 ∨ m = 3 ∨ m = 4 ∨ m = 5 ∨ m = 6 ∨ m = 7 ∨ m = 8 ∨ m = 9 ∨ m = 10 ∨ m = 11 := by omega
  by_cases hl : LeapYear y <;>
    rcases this with rfl | rfl | rfl | rfl | rfl | rfl | rfl | rfl | rfl | rfl | rfl <;>
    simp [monthStart, monthLength, daysBefore, hl]

theorem dayNumber_next {d : Day} (h : d.Ok) : dayNumber d.next = dayNumber d + 1 := by
  obtain ⟨y, m, k⟩ := d
  obtain ⟨h1, h2, h3, h4⟩ := h
  dsimp only at h1 h2 h3 h4
  unfold Day.next
  dsimp only
  split
  · simp only [dayNumber]; push_cast; omega
  · rename_i hk
    have hk : k = monthLength y m := by omega
    split
    · rename_i hm
      have := monthStart_succ h1 hm y
      simp only [dayNumber]; rw [hk]
      by_cases hl : LeapYear y <;> simp only [hl, true_and, false_and, if_false] at this ⊢ <;> push_cast <;> omega
    · have hm : m = 12 := by omega
      subst hm
      have := yearStart_succ y
      simp only [dayNumber]
      have e : monthLength y 12 = 31 := by simp [monthLength]
      have e1 : monthStart 12 = 334 := by simp [monthStart, daysBefore]
      have e2 : monthStart 1 = 0 := by simp [monthStart, daysBefore]
      rw [hk, e, e1, e2]
      simp only [show ¬ (3 ≤ 1) by omega, and_false, if_false, show (3 ≤ 12) by omega, and_true]
      push_cast; omega

theorem monthLength_pos (y m : Nat) : 28 ≤ monthLength y m := by
  unfold monthLength
  by_cases hl : LeapYear y <;> simp only [hl, if_true, if_false] <;> split <;> (try split) <;> omega

theorem Day.next_ok {d : Day} (h : d.Ok) : d.next.Ok := by
  obtain ⟨y, m, k⟩ := d
  obtain ⟨h1, h2, h3, h4⟩ := h
  dsimp only at h1 h2 h3 h4
  unfold Day.next
  dsimp only
  have a := monthLength_pos y (m + 1)
  have b := monthLength_pos (y + 1) 1
  split
  · exact ⟨h1, h2, by simp, by simpa using by omega⟩
  · split
    · exact ⟨by simp, by simpa using by omega, by simp, by simpa using by omega⟩
    · exact ⟨by simp, by simp, by simp, by simpa using by omega⟩

theorem _root_.Asn1go.Spec.DayNumber.eq {d : Day} {n : Int} (h : DayNumber d n) : d.Ok ∧ n = dayNumber d := by
  induction h with
  | epoch => exact ⟨by decide, by decide⟩
  | next _ ih => exact ⟨Day.next_ok ih.1, by rw [dayNumber_next ih.1, ih.2]⟩
  | before ok _ ih => exact ⟨ok, by rw [ih.2, dayNumber_next ok]; omega⟩

/-- A day that the counting reaches. -/
def Counted (d : Day) : Prop := ∃ n, DayNumber d n

theorem counted_next {d : Day} (h : d.Ok) : Counted d.next ↔ Counted d :=
  ⟨fun ⟨_, hn⟩ => ⟨_, .before h hn⟩, fun ⟨_, hn⟩ => ⟨_, .next hn⟩⟩

theorem counted_month {y m : Nat} (h1 : 1 ≤ m) (h2 : m ≤ 12) :
    ∀ k, 1 ≤ k → k ≤ monthLength y m → (Counted ⟨y, m, k⟩ ↔ Counted ⟨y, m, 1⟩)
  | 0, h, _ => by omega
  | 1, _, _ => Iff.rfl
  | k + 2, _, h => by
    have ih := counted_month (y := y) h1 h2 (k + 1) (by omega) (by omega)
    have := counted_next (d := ⟨y, m, k + 1⟩) ⟨h1, h2, by simp, by dsimp only; omega⟩
    rw [← ih, ← this]
    simp only [Day.next]
    rw [if_pos (by omega)]

theorem counted_year {y : Nat} : ∀ m, 1 ≤ m → m ≤ 12 → (Counted ⟨y, m, 1⟩ ↔ Counted ⟨y, 1, 1⟩)
  | 0, h, _ => by omega
  | 1, _, _ => Iff.rfl
  | m + 2, _, h => by
    have a := monthLength_pos y (m + 1)
    have ih := counted_year (y := y) (m + 1) (by omega) (by omega)
    have h2 := counted_month (y := y) (m := m + 1) (by omega) (by omega) (monthLength y (m + 1)) (by omega) (by omega)
    have h3 := counted_next (d := ⟨y, m + 1, monthLength y (m + 1)⟩) ⟨by simp, by simpa using by omega, by simpa using by omega, by simp⟩
    rw [← ih, ← h2, ← h3]
    simp only [Day.next]
    rw [if_neg (by omega), if_pos (by omega)]

theorem counted_years : ∀ y, Counted ⟨y, 1, 1⟩ ↔ Counted ⟨0, 1, 1⟩
  | 0 => Iff.rfl
  | y + 1 => by
    have a : monthLength y 12 = 31 := by simp [monthLength]
    have ih := counted_years y
    have h1 := counted_year (y := y) 12 (by omega) (by omega)
    have h2 := counted_month (y := y) (m := 12) (by omega) (by omega) 31 (by omega) (by omega)
    have h3 := counted_next (d := ⟨y, 12, 31⟩) ⟨by simp, by simp, by simp, by simp [a]⟩
    rw [← ih, ← h1, ← h2, ← h3]
    simp [Day.next, a]

/-- Every day of the calendar has a number. -/
theorem counted {d : Day} (h : d.Ok) : Counted d := by
  obtain ⟨y, m, k⟩ := d
  obtain ⟨h1, h2, h3, h4⟩ := h
  rw [counted_month h1 h2 k h3 h4, counted_year m h1 h2, counted_years y, ← counted_years 1970]
  exact ⟨_, .epoch⟩

theorem dayNumber_iff {d : Day} {n : Int} (h : d.Ok) : DayNumber d n ↔ n = dayNumber d := by
  refine ⟨fun h => h.eq.2, fun e => ?_⟩
  obtain ⟨k, hk⟩ := counted h
  rw [e, ← hk.eq.2]
  exact hk

theorem isLeap_iff (y : Nat) : isLeap (y : Int) = true ↔ LeapYear y := by
  simp only [isLeap, leap_mod, Bool.and_eq_true, Bool.or_eq_true, beq_iff_eq, bne_iff_ne]
  omega

theorem daysIn_eq {y m : Nat} (h1 : 1 ≤ m) (h2 : m ≤ 12) : daysIn m y = monthLength y m := by
  have : m = 1 ∨ m = 2 ∨ m = 3 ∨ m = 4 ∨ m = 5 ∨ m = 6 ∨ m = 7 ∨ m = 8 ∨ m = 9 ∨ m = 10 ∨ m = 11 ∨ m = 12 := by omega
  have e := isLeap_iff y
  by_cases hl : LeapYear y <;>
    rcases this with rfl | rfl | rfl | rfl | rfl | rfl | rfl | rfl | rfl | rfl | rfl | rfl <;>
    simp [daysIn, monthLength, daysBefore, hl, e]

theorem toUint64_eq {x : Int} (h1 : 0 ≤ x) (h2 : x < 18446744073709551616) : toUint64 x = x := Int.emod_eq_of_lt h1 h2

theorem div_four (q c s : Int) : (400 * q + 100 * c + s) / 4 = 100 * q + 25 * c + s / 4 := by omega

theorem div_hundred (q c s : Int) (h1 : 0 ≤ s) (h2 : s < 100) : (400 * q + 100 * c + s) / 100 = 4 * q + c := by omega

theorem daysSinceEpoch_eq {y : Nat} (h : y ≤ 9999) : daysSinceEpoch y = yearStart y + 106751991073094 := by
  obtain ⟨a, ha⟩ : ∃ a : Int, a = (y : Int) - 1 := ⟨_, rfl⟩
  have e1 : (y : Int) - absoluteZeroYear = a + 400 * 730692556 := by unfold absoluteZeroYear; omega
  have e2 : toUint64 (a + 400 * 730692556) = a + 400 * 730692556 := toUint64_eq (by omega) (by omega)
  obtain ⟨q, hq⟩ : ∃ q, q = a / 400 := ⟨_, rfl⟩
  obtain ⟨r, hr⟩ : ∃ r, r = a - 400 * q := ⟨_, rfl⟩
  have hr0 : 0 ≤ r ∧ r < 400 := by omega
  have e3 : (a + 400 * 730692556) / 400 = q + 730692556 := by omega
  have e4 : a + 400 * 730692556 - 400 * (q + 730692556) = r := by omega
  obtain ⟨c, hc⟩ : ∃ c, c = r / 100 := ⟨_, rfl⟩
  obtain ⟨s, hs⟩ : ∃ s, s = r - 100 * c := ⟨_, rfl⟩
  have hs0 : 0 ≤ s ∧ s < 100 := by omega
  obtain ⟨f, hf⟩ : ∃ f, f = s / 4 := ⟨_, rfl⟩
  have hd : daysSinceEpoch y = 146097 * (q + 730692556) + 36524 * c + 1461 * f + 365 * (s - 4 * f) := by
    unfold daysSinceEpoch
    dsimp only
    rw [e1, e2, e3, e4, ← hc, ← hs, ← hf]
  have ea : a = 400 * q + 100 * c + s := by omega
  have h4 : a / 4 = 100 * q + 25 * c + f := by rw [ea, div_four, hf]
  have h100 : a / 100 = 4 * q + c := by rw [ea, div_hundred _ _ _ hs0.1 hs0.2]
  rw [hd, yearStart, ← ha, h4, h100, ← hq, ea]
  clear hd h4 h100 ea e1 e2 e3 e4
  omega

theorem timeDate_eq {t : Moment} (h : t.Ok) : timeDate (fieldsOf t) = (dayNumber t.day * 86400 + t.clock, (t.nsec : Int)) := by
  obtain ⟨⟨y, m, k⟩, hh, mi, se, ns⟩ := t
  obtain ⟨⟨h1, h2, h3, h4⟩, h5, h6, h7, h8, h9⟩ := h
  dsimp only at h1 h2 h3 h4 h5 h6 h7 h8 h9
  have e := isLeap_iff y
  have em : ((m : Int) - 1).toNat = m - 1 := by omega
  have h31 : monthLength y m ≤ 31 := by
    unfold monthLength
    by_cases hl : LeapYear y <;> simp only [hl, if_true, if_false] <;> split <;> (try split) <;> omega
  have hms : 0 ≤ monthStart m ∧ monthStart m ≤ 334 := by
    have : ∀ m : Nat, m ≤ 12 → 0 ≤ monthStart m ∧ monthStart m ≤ 334 := by decide
    exact this m h2
  have hl : (if isLeap (y : Int) = true ∧ (3 : Int) ≤ (m : Int) then (1 : Int) else 0) =
      if LeapYear y ∧ 3 ≤ m then 1 else 0 := by
    by_cases c : LeapYear y ∧ 3 ≤ m
    · rw [if_pos c, if_pos ⟨e.2 c.1, by omega⟩]
    · rw [if_neg c, if_neg fun x => c ⟨e.1 x.1, by omega⟩]
  have hl01 : 0 ≤ (if LeapYear y ∧ 3 ≤ m then (1 : Int) else 0) ∧ (if LeapYear y ∧ 3 ≤ m then (1 : Int) else 0) ≤ 1 := by
    split <;> simp
  have key : ∀ x : Int, (if isLeap (y : Int) = true ∧ (3 : Int) ≤ (m : Int) then x + 1 else x) =
      x + (if isLeap (y : Int) = true ∧ (3 : Int) ≤ (m : Int) then (1 : Int) else 0) := by
    intro x; split <;> simp
  have hy : -800000 ≤ yearStart y ∧ yearStart y ≤ 4000000 := by unfold yearStart; omega
  simp only [timeDate, fieldsOf, key, hl, em, daysSinceEpoch_eq h5, dayNumber, Moment.clock, Prod.mk.injEq, and_true]
  rw [show daysBefore.getD (m - 1) 0 = monthStart m from rfl]
  generalize (if LeapYear y ∧ 3 ≤ m then (1 : Int) else 0) = lp at hl01 ⊢
  generalize monthStart m = ms at hms ⊢
  generalize yearStart y = ys at hy ⊢
  obtain ⟨d, hd⟩ : ∃ d : Int, d = ys + ms + lp + k - 1 := ⟨_, rfl⟩
  obtain ⟨c, hc⟩ : ∃ c : Int, c = hh * 3600 + mi * 60 + se := ⟨_, rfl⟩
  have hd0 : -900000 ≤ d ∧ d ≤ 5000000 := by omega
  have hc0 : 0 ≤ c ∧ c < 86400 := by omega
  rw [show ys + 106751991073094 + ms + lp + ((k : Int) - 1) = d + 106751991073094 by omega, ← hd, ← hc]
  clear hd hc
  rw [toUint64_eq (x := (d + 106751991073094) * 86400) (by omega) (by omega)]
  rw [toUint64_eq (by omega) (by omega)]
  have hw : ∀ x z : Int, toInt64 (toInt64 x + z) = toInt64 (x + z) := by
    intro x z
    unfold toInt64
    congr 1
    rw [show (x + 9223372036854775808) % 18446744073709551616 - 9223372036854775808 + z + 9223372036854775808 =
      (x + 9223372036854775808) % 18446744073709551616 + z by omega, Int.emod_add_emod]
    congr 1
    omega
  rw [hw]
  unfold toInt64 absoluteToInternal internalToUnix
  rw [Int.emod_eq_of_lt (by omega) (by omega)]
  omega

/-! ### Order -/

/-- Days of the year before a month. -/
def startOf (y m : Nat) : Int := monthStart m + if LeapYear y ∧ 3 ≤ m then 1 else 0

theorem startOf_lt {y m : Nat} (h1 : 1 ≤ m) : ∀ m', m < m' → m' ≤ 12 → startOf y m + monthLength y m ≤ startOf y m'
  | 0, h, _ => by omega
  | m' + 1, h, h2 => by
    have e : startOf y (m' + 1) = startOf y m' + monthLength y m' := monthStart_succ (by omega) (by omega) y
    rcases Nat.lt_or_ge m m' with hlt | hge
    · have := startOf_lt (y := y) h1 m' hlt (by omega)
      omega
    · have : m' = m := by omega
      subst this
      omega

theorem dayNumber_startOf (d : Day) : dayNumber d = yearStart d.year + startOf d.year d.month + d.day - 1 := by
  unfold dayNumber startOf; omega

theorem startOf_bounds {y m : Nat} (h1 : 1 ≤ m) (h2 : m ≤ 12) :
    0 ≤ startOf y m ∧ startOf y m + monthLength y m ≤ 365 + if LeapYear y then 1 else 0 := by
  have e1 : startOf y 1 = 0 := by simp [startOf, monthStart, daysBefore]
  have e12 : startOf y 12 + monthLength y 12 = 365 + if LeapYear y then 1 else 0 := by
    have a : monthLength y 12 = 31 := by simp [monthLength]
    have b : monthStart 12 = 334 := by simp [monthStart, daysBefore]
    rw [startOf, a, b]
    simp only [show (3 ≤ 12) by omega, and_true]
    push_cast; omega
  constructor
  · rcases Nat.lt_or_ge 1 m with h | h
    · have := startOf_lt (y := y) (m := 1) (by omega) m h h2
      omega
    · have : m = 1 := by omega
      subst this; omega
  · rcases Nat.lt_or_ge m 12 with h | h
    · have := startOf_lt (y := y) h1 12 h (by omega)
      omega
    · have : m = 12 := by omega
      subst this; omega

theorem yearStart_mono {y : Nat} : ∀ y', y < y' → yearStart y + 365 + (if LeapYear y then 1 else 0) ≤ yearStart y'
  | 0, h => by omega
  | y' + 1, h => by
    have e := yearStart_succ y'
    rcases Nat.lt_or_ge y y' with hlt | hge
    · have := yearStart_mono y' hlt
      have : 0 ≤ (if LeapYear y' then (1 : Int) else 0) := by split <;> omega
      omega
    · have : y' = y := by omega
      subst this; omega

theorem dayNumber_lt {d e : Day} (hd : d.Ok) (he : e.Ok) (h : d.Before e) : dayNumber d < dayNumber e := by
  obtain ⟨h1, h2, h3, h4⟩ := hd
  obtain ⟨k1, k2, k3, k4⟩ := he
  rw [dayNumber_startOf, dayNumber_startOf]
  have b1 := startOf_bounds (y := d.year) h1 h2
  have b2 := startOf_bounds (y := e.year) k1 k2
  rcases h with h | ⟨ey, h | ⟨em, h⟩⟩
  · have := yearStart_mono _ h
    omega
  · have := startOf_lt (y := d.year) h1 _ h k2
    rw [← ey] at b2 ⊢
    omega
  · rw [← ey, ← em]; omega

theorem Day.trichotomy (d e : Day) : d.Before e ∨ d = e ∨ e.Before d := by
  obtain ⟨y, m, k⟩ := d
  obtain ⟨y', m', k'⟩ := e
  simp only [Day.Before, Day.mk.injEq]
  omega

/-- Seconds since 1970. -/
def seconds (t : Moment) : Int := dayNumber t.day * 86400 + t.clock

theorem Moment.trichotomy (t t' : Moment) : t.Before t' ∨ t = t' ∨ t'.Before t := by
  obtain ⟨d, h, m, s, n⟩ := t
  obtain ⟨d', h', m', s', n'⟩ := t'
  simp only [Moment.Before, Moment.mk.injEq]
  rcases Day.trichotomy d d' with h | rfl | h
  · exact .inl (.inl h)
  · simp only [true_and]
    have : h < h' ∨ h = h' ∨ h' < h := by omega
    have : m < m' ∨ m = m' ∨ m' < m := by omega
    have : s < s' ∨ s = s' ∨ s' < s := by omega
    have : n < n' ∨ n = n' ∨ n' < n := by omega
    by_cases hb : d.Before d
    · exact .inl (.inl hb)
    · simp only [hb, false_or]
      omega
  · exact .inr (.inr (.inl h))

theorem seconds_lt {t t' : Moment} (h : t.Ok) (h' : t'.Ok) (hb : t.Before t') :
    seconds t < seconds t' ∨ (seconds t = seconds t' ∧ t.nsec < t'.nsec) := by
  obtain ⟨a1, a2, a3, a4, a5, a6⟩ := h
  obtain ⟨b1, b2, b3, b4, b5, b6⟩ := h'
  unfold seconds Moment.clock
  rcases hb with hb | ⟨e, hb⟩
  · have := dayNumber_lt a1 b1 hb
    omega
  · rw [e]; omega

end Asn1go
