import Verif.Proofs.Tools.WsTime

/-! Properties of `ParseWiresharkTime` (/repo/internal/utils/dump.go:31-37). -/

namespace Asn1go.Props

open Spec

/-- **C80.**  The result for a text: the seconds from 1970-01-01 00:00:00, by counting days, and the nanoseconds. -/
theorem C80_reads (s : Str) (u ns : Int) :
    parseWiresharkTime s = some (u, ns) ↔
      ∃ t n, MomentText s t ∧ DayNumber t.day n ∧ u = n * 86400 + t.clock ∧ ns = t.nsec := by
  unfold parseWiresharkTime
  constructor
  · intro h
    obtain ⟨f, hf, e⟩ := Option.map_eq_some_iff.1 h
    obtain ⟨t, ht, rfl⟩ := parseTimeFields_inv hf
    have ok : t.Ok := by cases ht; assumption
    rw [timeDate_eq ok, Prod.mk.injEq] at e
    exact ⟨t, _, ht, (dayNumber_iff ok.1).2 rfl, e.1.symm, e.2.symm⟩
  · rintro ⟨t, n, ht, hn, rfl, rfl⟩
    have ok : t.Ok := by cases ht; assumption
    rw [parseTimeFields_of ht, Option.map_some, timeDate_eq ok, (dayNumber_iff ok.1).1 hn]

/-- It panics exactly on the other texts. -/
theorem C80_panics (s : Str) : parseWiresharkTime s = none ↔ ¬ ∃ t, MomentText s t := by
  constructor
  · rintro h ⟨t, ht⟩
    rw [parseWiresharkTime, parseTimeFields_of ht] at h
    exact nomatch h
  · intro h
    rw [parseWiresharkTime, Option.map_eq_none_iff]
    match e : parseTimeFields s with
    | none => rfl
    | some f =>
      obtain ⟨t, ht, _⟩ := parseTimeFields_inv e
      exact absurd ⟨t, ht⟩ h

/-- Every moment has a text, and every day a number. -/
theorem C80_total {t : Moment} (h : t.Ok) : (∃ s, MomentText s t) ∧ ∃ n, DayNumber t.day n := by
  refine ⟨⟨_, .mk (spaces := 1) (w := 2) (fraction := '.' :: (digits 9 t.nsec ++ [])) h (by omega) (.inl rfl) ?_⟩, counted h.1⟩
  have := FractionText.some (c := '.') (more := []) (k := 9) (n := t.nsec) (.inl rfl) (by omega) (by omega) h.2.2.2.2.2
    (fun e => absurd rfl e) (fun _ hx => nomatch hx)
  simpa using this

/-- A text stands for one moment only. -/
theorem C80_unambiguous {s : Str} {t t' : Moment} (h : MomentText s t) (h' : MomentText s t') : t = t' := by
  have e := (parseTimeFields_of h).symm.trans (parseTimeFields_of h')
  obtain ⟨⟨y, m, d⟩, hh, mi, se, ns⟩ := t
  obtain ⟨⟨y', m', d'⟩, hh', mi', se', ns'⟩ := t'
  simp only [fieldsOf, Option.some.injEq, TimeFields.mk.injEq, Int.natCast_inj] at e
  obtain ⟨rfl, rfl, rfl, rfl, rfl, rfl, rfl⟩ := e
  rfl

/-- **C81.**  Earlier texts give smaller times. -/
theorem C81_order {s s' : Str} {t t' : Moment} {u ns u' ns' : Int} (h : MomentText s t) (h' : MomentText s' t')
    (hu : parseWiresharkTime s = some (u, ns)) (hu' : parseWiresharkTime s' = some (u', ns')) :
    t.Before t' ↔ u < u' ∨ (u = u' ∧ ns < ns') := by
  have ok : t.Ok := by cases h; assumption
  have ok' : t'.Ok := by cases h'; assumption
  rw [parseWiresharkTime, parseTimeFields_of h, Option.map_some, timeDate_eq ok, Option.some.injEq, Prod.mk.injEq] at hu
  rw [parseWiresharkTime, parseTimeFields_of h', Option.map_some, timeDate_eq ok', Option.some.injEq, Prod.mk.injEq] at hu'
  obtain ⟨rfl, rfl⟩ := hu
  obtain ⟨rfl, rfl⟩ := hu'
  change _ ↔ seconds t < seconds t' ∨ (seconds t = seconds t' ∧ _)
  constructor
  · intro hb
    have := seconds_lt ok ok' hb
    omega
  · intro hl
    rcases Moment.trichotomy t t' with hb | rfl | hb
    · exact hb
    · omega
    · have := seconds_lt ok' ok hb
      omega

/-- Different moments give different times. -/
theorem C81_different {s s' : Str} {t t' : Moment} (h : MomentText s t) (h' : MomentText s' t') :
    parseWiresharkTime s = parseWiresharkTime s' ↔ t = t' := by
  have ok : t.Ok := by cases h; assumption
  have ok' : t'.Ok := by cases h'; assumption
  rw [parseWiresharkTime, parseTimeFields_of h, Option.map_some, timeDate_eq ok, parseWiresharkTime, parseTimeFields_of h',
    Option.map_some, timeDate_eq ok', Option.some.injEq, Prod.mk.injEq]
  change seconds t = seconds t' ∧ _ ↔ _
  constructor
  · rintro ⟨e1, e2⟩
    rcases Moment.trichotomy t t' with hb | rfl | hb
    · have := seconds_lt ok ok' hb
      omega
    · rfl
    · have := seconds_lt ok' ok hb
      omega
  · rintro rfl
    exact ⟨rfl, rfl⟩

/-- The time in the messages of rfc4120_test.go. -/
example : MomentText (c! "2018-01-03 06:04:07") ⟨⟨2018, 1, 3⟩, 6, 4, 7, 0⟩ :=
  .mk (t := ⟨⟨2018, 1, 3⟩, 6, 4, 7, 0⟩) (spaces := 1) (w := 2) (by decide) (by decide) (.inl rfl) .none

example : parseWiresharkTime (c! "2018-01-03 06:04:07") = some (1514959447, 0) := by decide +kernel

/-- An hour of one digit, two spaces and a fraction. -/
example : MomentText (c! "1969-12-31  9:59:59,25") ⟨⟨1969, 12, 31⟩, 9, 59, 59, 250000000⟩ :=
  .mk (t := ⟨⟨1969, 12, 31⟩, 9, 59, 59, 250000000⟩) (spaces := 2) (w := 1) (fraction := c! ",25") (by decide) (by decide)
    (.inr ⟨rfl, by decide⟩) (.some (more := []) (k := 2) (n := 25) (.inr rfl) (by decide) (by decide) (by decide) (by simp) (by simp [AllDigits]))

example : parseWiresharkTime (c! "1969-12-31  9:59:59,25") = some (-50401, 250000000) := by decide +kernel

example : DayNumber ⟨1969, 12, 31⟩ (-1) := .before (d := ⟨1969, 12, 31⟩) (by decide) .epoch

/-- No such day. -/
example : parseWiresharkTime (c! "2018-02-29 06:04:07") = none := by decide +kernel

example : Moment.Before ⟨⟨1969, 12, 31⟩, 9, 59, 59, 250000000⟩ ⟨⟨2018, 1, 3⟩, 6, 4, 7, 0⟩ := .inl (.inl (by decide))

end Asn1go.Props
