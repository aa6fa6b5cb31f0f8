import Verif.Spec.Forms

/-!
# Specification: days by their number in the year

`1999-008` is the eighth day of 1999. 32 is the space; separators are `-`, `/` and `.`.
-/

namespace Spec
open Pg (DateOrder)

/-- A year and the number of a day in it. -/
structure YearDayText where
  year : List Nat
  sep : Nat
  day : List Nat

def YearDayText.bytes (D : YearDayText) : List Nat := D.year ++ D.sep :: D.day

/-- The number of the day has three digits; a year of one or two digits can come first only in the order year-month-day.
After a space the number must be one of 1 to 366. -/
def YearDayText.Ok (order : DateOrder) (D : YearDayText) : Prop :=
  (3 ≤ D.year.length ∨ order = .ymd) ∧ DigitsOf 3 3 D.day ∧
    (((D.sep = 45 ∨ D.sep = 47 ∨ D.sep = 46) ∧ DigitsOf 1 10 D.year) ∨
      (D.sep = 32 ∧ DigitsOf 1 5 D.year ∧ 1 ≤ value D.day ∧ value D.day ≤ 366))

/-- The day, as days from 2000-01-01: counted from the first of January. Day 366 of a year of 365 days is the first of
January of the next year. -/
def YearDayText.number (D : YearDayText) (bc : Bool) : Option Int :=
  match inputYear D.year bc with
  | none => none
  | some y => if 1 ≤ value D.day ∧ value D.day ≤ 366 then some (dayNumber ⟨y, 1, 1⟩ + value D.day - 1) else none

end Spec
