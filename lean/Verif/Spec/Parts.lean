import Verif.Spec.Fractions

/-!
# Specification: intervals written with years-months, days and clock times, `1-2 3 04:05:06`
-/

namespace Spec

/-- 43 is `+`, 45 is `-`. -/
def plusMinus : Option Bool → List Nat
  | none => []
  | some false => [43]
  | some true => [45]

/-- The factor of a sign. -/
def signOf (s : Option Bool) : Int := if s = some true then -1 else 1

/-- A part of an interval: a quantity `3 days`, years and months `1-2`, or a clock time `04:05:06`, perhaps with a number of
days in front: `3 04:05:06`. -/
inductive IvPart where
  | quantity (x : FracQuantity)
  | months (sign : Option Bool) (ys ms : List Nat)
  | clock (days : Option (Option Bool × List Nat)) (sign : Option Bool) (T : ClockText)

namespace IvPart

/-- 45 is `-`, 32 is the space. -/
def text : IvPart → List Nat
  | .quantity x => x.text
  | .months s ys ms => plusMinus s ++ (ys ++ 45 :: ms)
  | .clock none s T => plusMinus s ++ T.bytes
  | .clock (some d) s T => plusMinus d.1 ++ (d.2 ++ 32 :: (plusMinus s ++ T.bytes))

/-- The numbers have one to ten digits, the clock time is written with colons: `hh:mm:ss[.f]`, `hh:mm` or `mm:ss.f`. -/
def Ok : IvPart → Prop
  | .quantity x => x.Ok
  | .months _ ys ms => DigitsOf 1 10 ys ∧ DigitsOf 1 10 ms
  | .clock d _ T => (∀ e ∈ d, DigitsOf 1 10 e.2) ∧ T.Ok ∧ T.colons = true

/-- The units a part sets. -/
def units : IvPart → List IvUnit
  | .quantity x => if x.whole.unit = .second ∧ x.tenMillionths ≠ 0 then [.second, .millisecond, .microsecond] else [x.whole.unit]
  | .months .. => [.month]
  | .clock d _ _ => (if d.isSome then [.day] else []) ++ [.hour, .minute, .second, .millisecond, .microsecond]

/-- The numbers of a part are in range: fractions of at most seven digits, less than twelve months beside years, less than
sixty minutes and at most sixty seconds in a clock time. -/
def InRange : IvPart → Prop
  | .quantity x => x.frac.length ≤ 7
  | .months _ _ ms => value ms ≤ 11
  | .clock _ _ T => T.m ≤ 59 ∧ T.s ≤ 60

instance (a : IvPart) : Decidable a.InRange := by unfold InRange; split <;> infer_instance

/-- What a part is: months, days and microseconds. -/
def Is : IvPart → Int × Int × Int → Prop
  | .quantity x, y => QuantityIs x y
  | .months s ys ms, y => y = (signOf s * (value ys * 12 + value ms), 0, 0)
  | .clock d s T, y => ∃ us, NearestMicros T.frac us ∧
      y = (0, (match d with | none => 0 | some e => signOf e.1 * value e.2), signOf s * clockValue T.h T.m T.s us)

/-- Months, days, whole minutes and microseconds written, without signs. -/
def sizes : IvPart → Int × Int × Int × Int
  | .quantity x => (value x.whole.digits * x.whole.unit.months, value x.whole.digits * x.whole.unit.days,
      value x.whole.digits * wholeMinutes x.whole.unit, value x.whole.digits * subMinute x.whole.unit)
  | .months _ ys ms => (value ys * 12 + value ms, 0, 0, 0)
  | .clock d _ T => (0, (match d with | none => 0 | some e => value e.2), T.h * 60 + T.m, T.s * 1000000)

/-- A fraction of a day, week or month. -/
def SplitsDays : IvPart → Prop
  | .quantity x => (x.whole.unit = .day ∨ x.whole.unit = .week ∨ x.whole.unit = .month) ∧ x.tenMillionths ≠ 0
  | _ => False

instance (a : IvPart) : Decidable a.SplitsDays := by unfold SplitsDays; split <;> infer_instance

/-- A clock time. -/
def IsClock : IvPart → Prop
  | .clock .. => True
  | _ => False

/-- The signs of the numbers of a part. -/
def signs : IvPart → List (Option Bool)
  | .quantity x => [x.whole.sign]
  | .months s _ _ => [s]
  | .clock none s _ => [s]
  | .clock (some d) s _ => [d.1, s]

end IvPart

/-- A text that can be read: all numbers in range, and no unit set twice. -/
def PartsFit (ps : List IvPart) : Prop :=
  (∀ a ∈ ps, a.InRange) ∧ ps.Pairwise fun a b => ∀ u ∈ a.units, u ∉ b.units

instance (ps : List IvPart) : Decidable (PartsFit ps) := by unfold PartsFit; infer_instance

/-- At most two thousand million months, days, minutes and seconds. -/
def PartsModest (ps : List IvPart) : Prop :=
  (ps.map fun a => a.sizes.1).sum ≤ 2000000000 ∧ (ps.map fun a => a.sizes.2.1).sum ≤ 2000000000 ∧
    (ps.map fun a => a.sizes.2.2.1).sum ≤ 2000000000 ∧ (ps.map fun a => a.sizes.2.2.2).sum ≤ 2000000000000000 ∧
    ∀ a ∈ ps, match a with
      | .quantity x => value x.whole.digits ≤ 2147483647
      | _ => True

/-- No fraction of a day, week or month after the clock time. -/
def FractionsFirst (ps : List IvPart) : Prop := ps.Pairwise fun a b => a.IsClock → ¬ b.SplitsDays

/-- The text of the parts, with the word `ago` at the end or not. -/
def partsText (ps : List IvPart) (ago : Option (List Nat)) : List Nat := spaced (ps.map IvPart.text ++ ago.toList)

/-- The first sign is a minus, and there is no other sign. -/
def LoneMinus (ps : List IvPart) : Prop :=
  match (ps.map IvPart.signs).flatten with
  | [] => False
  | s :: r => s = some true ∧ ∀ t ∈ r, t = none

end Spec
