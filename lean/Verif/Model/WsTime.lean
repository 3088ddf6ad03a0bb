import Verif.Model.Lexer

/-! Model of `ParseWiresharkTime` (/repo/internal/utils/dump.go:10-11, 31-37) with the parts of Go's package `time` it uses:
`time.Parse` (format.go) on the layout `2006-01-02 15:04:05`, and `time.Date` (time.go).  Strings are lists of characters, one per byte.

The layout is fixed, so `nextStdChunk` is not modelled: `wsLayout` is the list of the chunks it finds, each with the text before it.
Go before 1.17 knows no comma before a fraction of a second. -/

namespace Asn1go

/-- format.go `isDigit`, of one byte.  For dump.go:32. -/
def isTimeDigit (c : Char) : Bool := 48 ≤ c.toNat && c.toNat ≤ 57

/-- format.go `getnum`: one or two digits, two if `fixed`; `none` for an error.  For dump.go:32. -/
def getnum (s : Str) (fixed : Bool) : Option (Int × Str) :=
  match s with
  | [] => none
  | c :: l =>
    if !isTimeDigit c then none
    else
      match l with
      | [] => if fixed then none else some ((c.toNat - 48 : Nat), [])
      | d :: l' =>
        if !isTimeDigit d then (if fixed then none else some ((c.toNat - 48 : Nat), d :: l'))
        else some (((c.toNat - 48) * 10 + (d.toNat - 48) : Nat), l')

/-- format.go `cutspace`.  For dump.go:32. -/
def cutspace : Str → Str
  | [] => []
  | c :: l => if c = ' ' then cutspace l else c :: l

/-- format.go `skip`: `value` after `prefix`; the first argument bounds the rounds, each of which shortens the prefix.
For dump.go:32. -/
def skipPrefix : Nat → Str → Str → Option Str
  | 0, _, value => some value
  | _ + 1, [], value => some value
  | n + 1, p :: ps, value =>
    if p = ' ' then
      match value with
      | [] => skipPrefix n (cutspace (p :: ps)) []
      | v :: vs => if v ≠ ' ' then none else skipPrefix n (cutspace (p :: ps)) (cutspace (v :: vs))
    else
      match value with
      | [] => none
      | v :: vs => if v ≠ p then none else skipPrefix n ps vs

/-- format.go: the chunks of the layout (`stdLongYear`, `stdZeroMonth`, `stdZeroDay`, `stdHour`, `stdZeroMinute`, `stdZeroSecond`).
For dump.go:32. -/
inductive TimeChunk
  | year
  | month
  | day
  | hour
  | minute
  | second
  deriving DecidableEq, Repr

/-- The numbers read from a text, and given to `time.Date`.  For dump.go:32. -/
structure TimeFields where
  year : Int := 0
  month : Int := -1
  day : Int := -1
  hour : Int := 0
  min : Int := 0
  sec : Int := 0
  nsec : Int := 0
  deriving DecidableEq, Repr

/-- dump.go:11 `WS_TIME_FORMAT`, as `nextStdChunk` cuts it. -/
def wsLayout : List (Str × TimeChunk) :=
  [([], .year), (['-'], .month), (['-'], .day), ([' '], .hour), ([':'], .minute), ([':'], .second)]

/-- The digits at the start of a text.  For dump.go:32. -/
def spanTimeDigits : Str → Str × Str
  | [] => ([], [])
  | c :: l => if isTimeDigit c then (c :: (spanTimeDigits l).1, (spanTimeDigits l).2) else ([], c :: l)

/-- format.go `parseNanoseconds`, of the digits after the comma or dot: nine of them count.  For dump.go:32. -/
def parseNanoseconds (digits : Str) : Int :=
  (decValue 0 (digits.take 9) * 10 ^ (9 - (digits.take 9).length) : Nat)

/-- format.go, the case `stdZeroSecond`, after the two digits: a fraction of a second that is not in the layout.
For dump.go:32. -/
def parseFraction (value : Str) : Int × Str :=
  match value with
  | c :: d :: l =>
    if (c = '.' ∨ c = ',') ∧ isTimeDigit d then
      (parseNanoseconds (spanTimeDigits (d :: l)).1, (spanTimeDigits (d :: l)).2)
    else (0, value)
  | _ => (0, value)

/-- format.go: one chunk of `time.Parse`; `none` for an error, of syntax or of range.  For dump.go:32. -/
def parseChunk (k : TimeChunk) (f : TimeFields) (value : Str) : Option (TimeFields × Str) :=
  match k with
  | .year =>
    match value with
    | a :: b :: c :: d :: l =>
      if !isTimeDigit a then none
      else
        match atoi [a, b, c, d] with
        | none => none
        | some y => some ({ f with year := y }, l)
    | _ => none
  | .month =>
    match getnum value true with
    | none => none
    | some (n, l) => if n ≤ 0 ∨ 12 < n then none else some ({ f with month := n }, l)
  | .day =>
    match getnum value true with
    | none => none
    | some (n, l) => some ({ f with day := n }, l)
  | .hour =>
    match getnum value false with
    | none => none
    | some (n, l) => if n < 0 ∨ 24 ≤ n then none else some ({ f with hour := n }, l)
  | .minute =>
    match getnum value true with
    | none => none
    | some (n, l) => if n < 0 ∨ 60 ≤ n then none else some ({ f with min := n }, l)
  | .second =>
    match getnum value true with
    | none => none
    | some (n, l) =>
      if n < 0 ∨ 60 ≤ n then none
      else some ({ f with sec := n, nsec := (parseFraction l).1 }, (parseFraction l).2)

/-- format.go: the loop of `time.Parse`.  For dump.go:32. -/
def parseChunks : List (Str × TimeChunk) → TimeFields → Str → Option TimeFields
  | [], f, value => if value.length ≠ 0 then none else some f
  | (pre, k) :: l, f, value =>
    match skipPrefix (pre.length + 1) pre value with
    | none => none
    | some value =>
      match parseChunk k f value with
      | none => none
      | some (f, value) => parseChunks l f value

/-- time.go `isLeap`.  For dump.go:32. -/
def isLeap (year : Int) : Bool := year % 4 == 0 && (year % 100 != 0 || year % 400 == 0)

/-- time.go `daysBefore`.  For dump.go:32. -/
def daysBefore : List Int := [0, 31, 59, 90, 120, 151, 181, 212, 243, 273, 304, 334, 365]

/-- time.go `daysIn`.  For dump.go:32. -/
def daysIn (m year : Int) : Int :=
  if m = 2 ∧ isLeap year then 29 else daysBefore.getD m.toNat 0 - daysBefore.getD (m - 1).toNat 0

/-- A conversion to `uint64`.  For dump.go:32. -/
def toUint64 (i : Int) : Int := i % 18446744073709551616

/-- A conversion to `int64`.  For dump.go:32. -/
def toInt64 (i : Int) : Int := (i + 9223372036854775808) % 18446744073709551616 - 9223372036854775808

/-- time.go `absoluteZeroYear`.  For dump.go:32. -/
def absoluteZeroYear : Int := -292277022399
/-- time.go `absoluteToInternal`: `(absoluteZeroYear - internalYear) * 365.2425 * secondsPerDay`.  For dump.go:32. -/
def absoluteToInternal : Int := -9223371966579724800
/-- time.go `internalToUnix`: minus the days from year 1 to 1970, in seconds.  For dump.go:32. -/
def internalToUnix : Int := -((1969 * 365 + 1969 / 4 - 1969 / 100 + 1969 / 400) * 86400)

/-- time.go `daysSinceEpoch`.  For dump.go:32. -/
def daysSinceEpoch (year : Int) : Int :=
  let y := toUint64 (year - absoluteZeroYear)
  let n := y / 400
  let y := y - 400 * n
  let d := 146097 * n
  let n := y / 100
  let y := y - 100 * n
  let d := d + 36524 * n
  let n := y / 4
  let y := y - 4 * n
  let d := d + 1461 * n
  d + 365 * y

/-- time.go `Date` in UTC, for numbers in their usual ranges, which need no normalisation: the seconds of `Unix`, and the nanoseconds.
For dump.go:32. -/
def timeDate (f : TimeFields) : Int × Int :=
  let d := daysSinceEpoch f.year
  let d := d + daysBefore.getD (f.month - 1).toNat 0
  let d := if isLeap f.year ∧ 3 ≤ f.month then d + 1 else d
  let d := d + (f.day - 1)
  let abs := toUint64 (d * 86400)
  let abs := toUint64 (abs + (f.hour * 3600 + f.min * 60 + f.sec))
  (toInt64 (toInt64 abs + (absoluteToInternal + internalToUnix)), f.nsec)

/-- format.go `time.Parse` on the layout: the numbers; the day is compared with the month at the end.  For dump.go:32. -/
def parseTimeFields (s : Str) : Option TimeFields :=
  match parseChunks wsLayout {} s with
  | none => none
  | some f => if f.day < 1 ∨ daysIn f.month f.year < f.day then none else some f

/-- dump.go:31-37 `ParseWiresharkTime`: seconds and nanoseconds since 1970; `none` is a panic. -/
def parseWiresharkTime (s : Str) : Option (Int × Int) := (parseTimeFields s).map timeDate

end Asn1go
