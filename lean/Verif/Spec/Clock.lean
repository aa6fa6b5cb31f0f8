import Verif.Spec.Calendar

/-!
# Specification: clock times, instants and supported ranges
-/

namespace Spec

/-- A clock reading with microseconds. -/
structure Clock where
  h : Int
  mi : Int
  s : Int
  us : Int
  deriving DecidableEq, Repr

/-- The reading occurs on a clock (no leap seconds, no 24:00). -/
def Clock.Real (t : Clock) : Prop :=
  0 ≤ t.h ∧ t.h ≤ 23 ∧ 0 ≤ t.mi ∧ t.mi ≤ 59 ∧ 0 ≤ t.s ∧ t.s ≤ 59 ∧ 0 ≤ t.us ∧ t.us ≤ 999999

instance (c : Clock) : Decidable c.Real :=
  inferInstanceAs (Decidable (_ ∧ _ ∧ _ ∧ _ ∧ _ ∧ _ ∧ _ ∧ _))

/-- Microseconds since midnight. -/
def Clock.micros (t : Clock) : Int := ((t.h * 60 + t.mi) * 60 + t.s) * 1000000 + t.us

/-- Microseconds in a day. -/
def dayMicros : Int := 86400000000

/-- Microseconds since 2000-01-01 00:00 of the instant named by a day and a clock reading. -/
def instant (c : YMD) (t : Clock) : Int := dayNumber c * dayMicros + t.micros

/-- First and last supported day of the `Date` type. -/
def firstDay : YMD := ⟨-4713, 11, 24⟩
@[inherit_doc firstDay] def lastDay : YMD := ⟨5874897, 12, 31⟩
/-- Last supported day of the `Timestamp` type (the first is `firstDay`). -/
def lastTsDay : YMD := ⟨294276, 12, 31⟩

/-- Day `c` is supported by `Date`: not before the first and not after the last day. -/
def YMD.InDateRange (c : YMD) : Prop := ¬ c.lt firstDay ∧ ¬ lastDay.lt c
/-- Day `c` is supported by `Timestamp`. -/
def YMD.InTsRange (c : YMD) : Prop := ¬ c.lt firstDay ∧ ¬ lastTsDay.lt c

instance (c : YMD) : Decidable c.InDateRange := inferInstanceAs (Decidable (_ ∧ _))
instance (c : YMD) : Decidable c.InTsRange := inferInstanceAs (Decidable (_ ∧ _))

/-- The microsecond count of a supported finite timestamp: from the start of the first
supported day up to, but not including, the day after the last one. -/
def TsRange (t : Int) : Prop :=
  instant firstDay ⟨0, 0, 0, 0⟩ ≤ t ∧ t < instant lastTsDay.next ⟨0, 0, 0, 0⟩

/-- The day number of a supported finite date. -/
def DateRange (n : Int) : Prop := dayNumber firstDay ≤ n ∧ n ≤ dayNumber lastDay

end Spec

namespace Spec

/-- Year notation of the API: a negative number `-n` is the year `n` BC, there is no year 0. -/
def apiYear (y : Int) : Int := if y < 0 then y + 1 else y

/-- The triple `(y, m, d)` in API notation names a supported calendar day. -/
def ApiDate (y m d : Int) : Prop :=
  y ≠ 0 ∧ (⟨apiYear y, m, d⟩ : YMD).Real ∧ (⟨apiYear y, m, d⟩ : YMD).InDateRange

instance (y m d : Int) : Decidable (ApiDate y m d) := inferInstanceAs (Decidable (_ ∧ _ ∧ _))

end Spec

namespace Spec

instance (t : Int) : Decidable (TsRange t) := inferInstanceAs (Decidable (_ ∧ _))
instance (t : Int) : Decidable (DateRange t) := inferInstanceAs (Decidable (_ ∧ _))

end Spec

namespace Spec

/-- Clock (lexicographic) order. -/
def Clock.lt (a b : Clock) : Prop :=
  a.h < b.h ∨ (a.h = b.h ∧ (a.mi < b.mi ∨ (a.mi = b.mi ∧ (a.s < b.s ∨ (a.s = b.s ∧ a.us < b.us)))))

/-- Chronological order of (day, clock) pairs: day first, then clock. -/
def dtLt (c : YMD) (t : Clock) (c' : YMD) (t' : Clock) : Prop := c.lt c' ∨ (c = c' ∧ t.lt t')

end Spec

namespace Spec

/-- The day `n` months after `c`: same day of the month in the month `n` months later, or the last
day of that month if it is shorter. -/
def YMD.addMonths (c : YMD) (n : Int) : YMD :=
  let k := c.y * 12 + (c.m - 1) + n
  let y := k / 12
  let m := k % 12 + 1
  ⟨y, m, if c.d ≤ monthDays y m then c.d else monthDays y m⟩

end Spec
