import Verif.Spec.Fractions

/-!
# Specification: ISO 8601 intervals, `P1Y2M3W4DT5H6M7.5S`, `P0001-02-03T04:05:06` and `P00010203T040506`
-/

namespace Spec

/-- The units written before and behind the `T`. -/
def isoDateUnits : List IvUnit := [.year, .month, .week, .day]
def isoTimeUnits : List IvUnit := [.hour, .minute, .second]

/-- `Y`, `M`, `W`, `D`, `H`, `M`, `S` -/
def IvUnit.isoLetter : IvUnit → Nat
  | .year => 89 | .week => 87 | .day => 68 | .hour => 72 | .second => 83
  | _ => 77

/-- A number, perhaps with a fraction, of a unit. -/
structure IsoItem where
  digits : List Nat
  frac : List Nat
  unit : IvUnit

namespace IsoItem

/-- The number as it is written; 46 is the point. -/
def number (x : IsoItem) : List Nat := x.digits ++ (if x.frac = [] then [] else 46 :: x.frac)

/-- The number and the letter of the unit. -/
def text (x : IsoItem) : List Nat := x.number ++ [x.unit.isoLetter]

/-- One to ten digits below 2^31. Fractions of at most seven digits are allowed for years, days, hours and minutes up to ten
thousand, for weeks up to three thousand, for months up to seven hundred and for seconds up to a million. -/
def Ok (x : IsoItem) : Prop :=
  DigitsOf 1 10 x.digits ∧ DigitsOf 0 7 x.frac ∧ value x.digits ≤ 2147483647 ∧
    (x.frac ≠ [] → (x.unit = .year ∨ x.unit = .day ∨ x.unit = .hour ∨ x.unit = .minute) ∧ value x.digits ≤ 10000 ∨
      x.unit = .week ∧ value x.digits ≤ 3000 ∨ x.unit = .month ∧ value x.digits ≤ 700 ∨
      x.unit = .second ∧ value x.digits ≤ 1000000)

instance (x : IsoItem) : Decidable x.Ok := by unfold Ok; infer_instance

/-- What it stands for. -/
def quantity (x : IsoItem) : FracQuantity := ⟨⟨none, x.digits, false, x.unit, [x.unit.isoLetter]⟩, x.frac⟩

end IsoItem

/-- What `k` ten-millionths of a unit are: months, days and microseconds. Fractions of a month are days and microseconds that
come to 30 days times the fraction; if that is a whole number of days, one of these days may be written as 24 hours. Everything
else is as in words. -/
def IsoFractionIs (u : IvUnit) (k m d s : Int) : Prop :=
  match u with
  | .month => m = 0 ∧ d * 86400000000 + s = k * 30 * 8640 ∧
      (d = k * 30 / 10000000 ∨ k * 30 % 10000000 = 0 ∧ 0 < k ∧ d = k * 30 / 10000000 - 1)
  | u => FractionIs u k m d s

/-- What a number with its letter is: months, days and microseconds. -/
def IsoQuantityIs (x : FracQuantity) (y : Int × Int × Int) : Prop :=
  ∃ m d s, IsoFractionIs x.whole.unit x.tenMillionths m d s ∧
    y = (value x.whole.digits * x.whole.unit.months + m, value x.whole.digits * x.whole.unit.days + d,
      value x.whole.digits * x.whole.unit.micros + s)

/-- The part before the `T`: numbers with letters; or year, month and day with dashes between, of which the later ones may
be missing; or four, two and two digits. -/
inductive IsoDatePart where
  | items (l : List IsoItem)
  | dashed (y : List Nat) (rest : Option (List Nat × Option (List Nat)))
  | packed (y m d : List Nat)

/-- The part behind the `T`: numbers with letters; or hour, minute and second with colons between, of which the later ones
may be missing; or two digits each. The seconds may have a fraction. -/
inductive IsoTimePart where
  | items (l : List IsoItem)
  | coloned (h : List Nat) (rest : Option (List Nat × Option (List Nat × List Nat)))
  | packed (h m s f : List Nat)

namespace IsoDatePart

/-- The quantities of the part. -/
def list : IsoDatePart → List IsoItem
  | items l => l
  | dashed y none => [⟨y, [], .year⟩]
  | dashed y (some (m, none)) => [⟨y, [], .year⟩, ⟨m, [], .month⟩]
  | dashed y (some (m, some d)) => [⟨y, [], .year⟩, ⟨m, [], .month⟩, ⟨d, [], .day⟩]
  | packed y m d => [⟨y, [], .year⟩, ⟨m, [], .month⟩, ⟨d, [], .day⟩]

/-- 45 is `-`. -/
def text : IsoDatePart → List Nat
  | items l => (l.map IsoItem.text).flatten
  | dashed y none => y
  | dashed y (some (m, none)) => y ++ 45 :: m
  | dashed y (some (m, some d)) => y ++ 45 :: (m ++ 45 :: d)
  | packed y m d => y ++ (m ++ d)

/-- Letters of the date, and not eight digits for a year alone. -/
def Ok : IsoDatePart → Prop
  | items l => ∀ x ∈ l, x.Ok ∧ x.unit ∈ isoDateUnits
  | dashed y r => (∀ x ∈ (dashed y r).list, x.Ok) ∧ (r = none → y.length ≠ 8)
  | packed y m d => DigitsOf 4 4 y ∧ DigitsOf 2 2 m ∧ DigitsOf 2 2 d

instance (x : IsoDatePart) : Decidable x.Ok := by unfold Ok; cases x <;> infer_instance

end IsoDatePart

namespace IsoTimePart

/-- The quantities of the part. -/
def list : IsoTimePart → List IsoItem
  | items l => l
  | coloned h none => [⟨h, [], .hour⟩]
  | coloned h (some (m, none)) => [⟨h, [], .hour⟩, ⟨m, [], .minute⟩]
  | coloned h (some (m, some (s, f))) => [⟨h, [], .hour⟩, ⟨m, [], .minute⟩, ⟨s, f, .second⟩]
  | packed h m s f => [⟨h, [], .hour⟩, ⟨m, [], .minute⟩, ⟨s, f, .second⟩]

/-- 58 is `:`. -/
def text : IsoTimePart → List Nat
  | items l => (l.map IsoItem.text).flatten
  | coloned h none => h
  | coloned h (some (m, none)) => h ++ 58 :: m
  | coloned h (some (m, some (s, f))) => h ++ 58 :: (m ++ 58 :: (IsoItem.mk s f .second).number)
  | packed h m s f => h ++ (m ++ (IsoItem.mk s f .second).number)

/-- Letters of the time, and not six digits for an hour alone. -/
def Ok : IsoTimePart → Prop
  | items l => ∀ x ∈ l, x.Ok ∧ x.unit ∈ isoTimeUnits
  | coloned h r => (∀ x ∈ (coloned h r).list, x.Ok) ∧ (r = none → h.length ≠ 6)
  | packed h m s f => DigitsOf 2 2 h ∧ DigitsOf 2 2 m ∧ DigitsOf 2 2 s ∧ DigitsOf 0 7 f

instance (x : IsoTimePart) : Decidable x.Ok := by unfold Ok; cases x <;> infer_instance

end IsoTimePart

/-- The time part with its `T` (84), if there is one. -/
def isoTail : Option IsoTimePart → List Nat
  | none => []
  | some t => 84 :: t.text

/-- The quantities of the time part. -/
def isoTailList : Option IsoTimePart → List IsoItem
  | none => []
  | some t => t.list

/-- An interval: 80 is `P`. -/
def isoText (d : IsoDatePart) (t : Option IsoTimePart) : List Nat := 80 :: (d.text ++ isoTail t)

/-- All quantities. -/
def isoList (d : IsoDatePart) (t : Option IsoTimePart) : List FracQuantity :=
  (d.list ++ isoTailList t).map IsoItem.quantity

end Spec
