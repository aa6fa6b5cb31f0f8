import Verif.Spec.Forms
import Verif.Spec.Words
import Verif.Spec.Interval

/-!
# Specification: intervals written as quantities, `3 days 2 hours ago`
-/

namespace Spec

/-- The units of an interval. -/
inductive IvUnit where
  | microsecond | millisecond | second | minute | hour | day | week | month | year | decade | century | millennium
  deriving DecidableEq, Repr

/-- The letters of a word. -/
def letters (s : String) : List Nat := s.toList.map Char.toNat

/-- The spellings of each unit, in small letters. -/
def IvUnit.spellings : IvUnit → List String
  | .microsecond => ["us", "usec", "usecs", "usecond", "useconds", "microsecond", "microseconds"]
  | .millisecond => ["ms", "msec", "msecs", "msecond", "mseconds", "millisecond", "milliseconds"]
  | .second => ["s", "sec", "secs", "second", "seconds"]
  | .minute => ["m", "min", "mins", "minute", "minutes"]
  | .hour => ["h", "hr", "hrs", "hour", "hours"]
  | .day => ["d", "day", "days"]
  | .week => ["w", "week", "weeks"]
  | .month => ["mon", "mons", "month", "months"]
  | .year => ["y", "yr", "yrs", "year", "years"]
  | .decade => ["dec", "decs", "decade", "decades"]
  | .century => ["c", "cent", "century", "centuries"]
  | .millennium => ["mil", "mils", "millennium", "millennia"]

/-- What one unit adds to the three parts of an interval. -/
def IvUnit.months : IvUnit → Int
  | .month => 1 | .year => 12 | .decade => 120 | .century => 1200 | .millennium => 12000
  | _ => 0

def IvUnit.days : IvUnit → Int
  | .day => 1 | .week => 7
  | _ => 0

def IvUnit.micros : IvUnit → Int
  | .microsecond => 1 | .millisecond => 1000 | .second => 1000000 | .minute => 60000000 | .hour => 3600000000
  | _ => 0

/-- A number with an optional sign (`some true` is a minus) and a unit: `-3 days`, with or without the space. -/
structure Quantity where
  sign : Option Bool
  digits : List Nat
  space : Bool
  unit : IvUnit
  word : List Nat

namespace Quantity

/-- 43 is `+`, 45 is `-`. -/
def text (q : Quantity) : List Nat :=
  (match q.sign with | none => [] | some false => [43] | some true => [45]) ++ q.digits ++
    (if q.space then [32] else []) ++ q.word

/-- The digits are one to ten, and the word spells the unit in any letter case. -/
def Ok (q : Quantity) : Prop :=
  DigitsOf 1 10 q.digits ∧ ∃ s ∈ q.unit.spellings, SameButCase q.word (letters s)

/-- The number. -/
def number (q : Quantity) : Int := if q.sign = some true then -(value q.digits : Int) else value q.digits

end Quantity

/-- Sum over the quantities of the number times `f` of the unit. -/
def total (f : IvUnit → Int) (qs : List Quantity) : Int := (qs.map fun q => q.number * f q.unit).sum

/-- The same without signs. -/
def size (f : IvUnit → Int) (qs : List Quantity) : Int := (qs.map fun q => (value q.digits : Int) * f q.unit).sum

/-- Whole minutes, from hours and minutes only. -/
def wholeMinutes : IvUnit → Int
  | .minute => 1 | .hour => 60
  | _ => 0

/-- Microseconds, from seconds and smaller units only. -/
def subMinute : IvUnit → Int
  | .microsecond => 1 | .millisecond => 1000 | .second => 1000000
  | _ => 0

/-- No part of the interval needs more than 31 bits: less than 2^31 months, days, minutes and seconds are written. -/
def Moderate (qs : List Quantity) : Prop :=
  size IvUnit.months qs ≤ 2147483647 ∧ size IvUnit.days qs ≤ 2147483647 ∧ size wholeMinutes qs ≤ 2147483647 ∧
    size subMinute qs ≤ 2147483647000000 ∧ ∀ q ∈ qs, value q.digits ≤ 2147483647

/-- Words separated by single spaces. -/
def spaced : List (List Nat) → List Nat
  | [] => []
  | [x] => x
  | x :: xs => x ++ 32 :: spaced xs

/-- The text of the quantities, with the word `ago` (in any letter case) at the end or not. -/
def quantitiesText (qs : List Quantity) (ago : Option (List Nat)) : List Nat :=
  spaced (qs.map Quantity.text ++ ago.toList)

/-- The word `ago`. -/
def AgoWord (w : List Nat) : Prop := SameButCase w (letters "ago")

end Spec

namespace Spec
/-- The unit of a field. -/
def SqlField.unit : SqlField → IvUnit
  | .year => .year | .month => .month | .day => .day | .hour => .hour | .minute => .minute | .second => .second
end Spec
