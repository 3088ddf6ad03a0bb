import Verif.Model.Lexer

/-! The Gregorian calendar, and times of day as texts. -/

namespace Asn1go.Spec

/-- A year of 366 days. -/
def LeapYear (y : Nat) : Prop := (4 ∣ y ∧ ¬ 100 ∣ y) ∨ 400 ∣ y

instance (y : Nat) : Decidable (LeapYear y) := by unfold LeapYear; infer_instance

/-- The number of days of a month of a year. -/
def monthLength (y m : Nat) : Nat :=
  if m = 2 then (if LeapYear y then 29 else 28)
  else if m = 4 ∨ m = 6 ∨ m = 9 ∨ m = 11 then 30 else 31

/-- A date. -/
structure Day where
  year : Nat
  month : Nat
  day : Nat
  deriving DecidableEq

/-- It is in the calendar. -/
def Day.Ok (d : Day) : Prop := 1 ≤ d.month ∧ d.month ≤ 12 ∧ 1 ≤ d.day ∧ d.day ≤ monthLength d.year d.month

instance (d : Day) : Decidable d.Ok := by unfold Day.Ok; infer_instance

/-- The day after. -/
def Day.next (d : Day) : Day :=
  if d.day < monthLength d.year d.month then ⟨d.year, d.month, d.day + 1⟩
  else if d.month < 12 then ⟨d.year, d.month + 1, 1⟩ else ⟨d.year + 1, 1, 1⟩

/-- A date with a time of day. -/
structure Moment where
  day : Day
  hour : Nat
  min : Nat
  sec : Nat
  nsec : Nat
  deriving DecidableEq

/-- It is in the calendar and on the clock. -/
def Moment.Ok (t : Moment) : Prop :=
  t.day.Ok ∧ t.day.year ≤ 9999 ∧ t.hour < 24 ∧ t.min < 60 ∧ t.sec < 60 ∧ t.nsec < 1000000000

instance (t : Moment) : Decidable t.Ok := by unfold Moment.Ok; infer_instance

/-- The decimal digits of `n`, the last `k` of them. -/
def digits : Nat → Nat → Str
  | 0, _ => []
  | k + 1, n => digits k (n / 10) ++ [Char.ofNat (48 + n % 10)]

/-- A text is made of decimal digits. -/
def AllDigits (s : Str) : Prop := ∀ c ∈ s, '0' ≤ c ∧ c ≤ '9'

/-- The text after the seconds: nothing, or a dot or comma with digits, of which the first nine count. -/
inductive FractionText : Str → Nat → Prop
  | none : FractionText [] 0
  | some {c : Char} {more : Str} {k n : Nat} : c = '.' ∨ c = ',' → 1 ≤ k → k ≤ 9 → n < 10 ^ k → (more ≠ [] → k = 9) →
      AllDigits more → FractionText (c :: (digits k n ++ more)) (n * 10 ^ (9 - k))

/-- The texts of a moment: `2006-01-02 15:04:05`, with any number of spaces, with an hour of one or two digits, and with a fraction. -/
inductive MomentText : Str → Moment → Prop
  | mk {t : Moment} {spaces w : Nat} {fraction : Str} : t.Ok → 1 ≤ spaces → (w = 2 ∨ (w = 1 ∧ t.hour < 10)) →
      FractionText fraction t.nsec →
      MomentText (digits 4 t.day.year ++ '-' :: (digits 2 t.day.month ++ '-' :: (digits 2 t.day.day ++
        (List.replicate spaces ' ' ++ (digits w t.hour ++ ':' :: (digits 2 t.min ++ ':' :: (digits 2 t.sec ++ fraction))))))) t

/-- Days counted from 1970-01-01, forwards and backwards. -/
inductive DayNumber : Day → Int → Prop
  | epoch : DayNumber ⟨1970, 1, 1⟩ 0
  | next {d : Day} {n : Int} : DayNumber d n → DayNumber d.next (n + 1)
  | before {d : Day} {n : Int} : d.Ok → DayNumber d.next n → DayNumber d (n - 1)

/-- Earlier in the calendar. -/
def Day.Before (d e : Day) : Prop :=
  d.year < e.year ∨ (d.year = e.year ∧ (d.month < e.month ∨ (d.month = e.month ∧ d.day < e.day)))

/-- Earlier: by day, hour, minute, second and nanosecond. -/
def Moment.Before (t t' : Moment) : Prop :=
  t.day.Before t'.day ∨ (t.day = t'.day ∧ (t.hour < t'.hour ∨ (t.hour = t'.hour ∧ (t.min < t'.min ∨
    (t.min = t'.min ∧ (t.sec < t'.sec ∨ (t.sec = t'.sec ∧ t.nsec < t'.nsec)))))))

/-- Seconds since midnight. -/
def Moment.clock (t : Moment) : Int := t.hour * 3600 + t.min * 60 + t.sec

end Asn1go.Spec
