/-!
# Specification: proleptic Gregorian calendar

Years are astronomical (year 0 = 1 BC). Independent of the model.
-/

namespace Spec

/-- Gregorian leap rule. -/
def Leap (y : Int) : Prop := y % 4 = 0 ∧ (y % 100 ≠ 0 ∨ y % 400 = 0)

instance (y : Int) : Decidable (Leap y) := inferInstanceAs (Decidable (_ ∧ _))

/-- Length of month `m` of year `y`. -/
def monthDays (y m : Int) : Int :=
  if m = 2 then (if Leap y then 29 else 28)
  else if m = 4 ∨ m = 6 ∨ m = 9 ∨ m = 11 then 30
  else 31

/-- Length of year `y`. -/
def yearDays (y : Int) : Int := if Leap y then 366 else 365

/-- A calendar day. -/
structure YMD where
  y : Int
  m : Int
  d : Int
  deriving DecidableEq, Repr

/-- The triple names a day that exists. -/
def YMD.Real (c : YMD) : Prop :=
  1 ≤ c.m ∧ c.m ≤ 12 ∧ 1 ≤ c.d ∧ c.d ≤ monthDays c.y c.m

instance (c : YMD) : Decidable c.Real := inferInstanceAs (Decidable (_ ∧ _ ∧ _ ∧ _))

/-- The following calendar day. -/
def YMD.next (c : YMD) : YMD :=
  if c.d < monthDays c.y c.m then ⟨c.y, c.m, c.d + 1⟩
  else if c.m < 12 then ⟨c.y, c.m + 1, 1⟩
  else ⟨c.y + 1, 1, 1⟩

/-- Calendar (lexicographic) order. -/
def YMD.lt (a b : YMD) : Prop :=
  a.y < b.y ∨ (a.y = b.y ∧ (a.m < b.m ∨ (a.m = b.m ∧ a.d < b.d)))

instance (a b : YMD) : Decidable (a.lt b) := inferInstanceAs (Decidable (_ ∨ _))

/-- Days in the years `1 .. y-1` (negative when `y ≤ 0`). -/
def daysBeforeYear (y : Int) : Int :=
  365 * (y - 1) + (y - 1) / 4 - (y - 1) / 100 + (y - 1) / 400

/-- Days in the months `1 .. n` of year `y`. -/
def daysInMonths (y : Int) : Nat → Int
  | 0 => 0
  | n + 1 => daysInMonths y n + monthDays y (n + 1)

/-- Days from 2000-01-01 to the given day. -/
def dayNumber (c : YMD) : Int :=
  (daysBeforeYear c.y - daysBeforeYear 2000) + daysInMonths c.y (c.m - 1).toNat + (c.d - 1)

end Spec
