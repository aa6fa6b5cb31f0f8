import Verif.Spec.Units

/-!
# Specification: ISO 8601 week dates

Days are day numbers (days since 2000-01-01); years are astronomical.
-/

namespace Spec

/-- The Monday of the week containing day `n`. -/
def weekMonday (n : Int) : Int := n - weekday n

/-- Day `n` lies in the calendar year `y`. -/
def InYear (y n : Int) : Prop := dayNumber ⟨y, 1, 1⟩ ≤ n ∧ n < dayNumber ⟨y + 1, 1, 1⟩

/-- `(y, w, d)` is the ISO 8601 week date of day `n`: `y` is the calendar year of the Thursday of
the Monday-based week of `n`, `w` counts weeks from the one containing January 4 of `y` (week 1),
and `d` is the weekday, Monday = 1. -/
def IsoWeekDate (n y w d : Int) : Prop :=
  InYear y (weekMonday n + 3) ∧
  weekMonday n = weekMonday (dayNumber ⟨y, 1, 4⟩) + 7 * (w - 1) ∧
  d = weekday n + 1

end Spec
