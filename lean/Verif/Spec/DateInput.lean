import Verif.Spec.Text
import Verif.Spec.Calendar
import Verif.Model.Styles

/-!
# Specification: numeric dates as input

Three numbers with separators. Which one is the year, the month and the day follows from the date order,
except that a first number of three or more digits is always the year.
-/

namespace Spec
open Pg (DateOrder)

/-- The numbers in the order year, month, day. -/
def assign3 {α : Type} (order : DateOrder) (yearFirst : Bool) (a b c : α) : α × α × α :=
  if yearFirst then (a, b, c)
  else match order with
    | .ymd => (a, b, c)
    | .dmy => (c, b, a)
    | .mdy => (c, a, b)

/-- The calendar year meant by a year of digits `ys`, with or without `BC`. A year of one or two digits
(without `BC`) is in 1970-2069. There is no year 0. -/
def inputYear (ys : List Nat) (bc : Bool) : Option Int :=
  if bc then if value ys = 0 then none else some (1 - value ys)
  else if ys.length ≤ 2 then some (if value ys < 70 then value ys + 2000 else value ys + 1900)
  else if value ys = 0 then none else some (value ys)

/-- The day with these year digits, month and day, if there is one. -/
def namedDay (ys : List Nat) (m d : Int) (bc : Bool) : Option YMD :=
  match inputYear ys bc with
  | none => none
  | some y => if (⟨y, m, d⟩ : YMD).Real then some ⟨y, m, d⟩ else none

/-- The day meant by three numbers, if there is one. -/
def inputDay (order : DateOrder) (a b c : List Nat) (bc : Bool) : Option YMD :=
  let n := assign3 order (decide (3 ≤ a.length)) a b c
  namedDay n.1 (value n.2.1) (value n.2.2) bc

/-- Three numbers with the separator `d`, such as `2024-05-06`. -/
def numericDate (d : Nat) (a b c : List Nat) : List Nat := a ++ [d] ++ b ++ [d] ++ c

/-- The mark ` BC`. -/
def bcMark (bc : Bool) : List Nat := if bc then [32, 66, 67] else []

end Spec
