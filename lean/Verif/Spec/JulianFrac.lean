import Verif.Spec.LabelClock

/-!
# Specification: Julian day numbers with a fraction

`J2451545.25` is a quarter of a day after midnight of 2000-01-01.
-/

namespace Spec

/-- A Julian day number and the digits of its fraction. -/
structure JulianFrac where
  day : JulianText
  frac : List Nat

/-- 46 is the point. -/
def JulianFrac.bytes (J : JulianFrac) : List Nat := J.day.bytes ++ 46 :: J.frac

/-- The fraction has up to seven digits. -/
def JulianFrac.Ok (J : JulianFrac) : Prop := J.day.Ok ∧ DigitsOf 1 7 J.frac

/-- The microseconds that are the fraction of a day: of a day's 86400000000 microseconds, as many as the digits say. As the
fraction has up to seven digits, this is a whole number. -/
def DayFraction (fs : List Nat) (us : Int) : Prop := us * 10 ^ fs.length = value fs * 86400000000

end Spec
