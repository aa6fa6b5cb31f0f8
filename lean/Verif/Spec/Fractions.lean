import Verif.Spec.Quantities

/-!
# Specification: intervals written as quantities with fractions, `1.5 days 0.25 hours`
-/

namespace Spec

/-- A quantity whose number may have a fraction: the digits after the point, none if there is no point. -/
structure FracQuantity where
  whole : Quantity
  frac : List Nat

namespace FracQuantity

/-- 46 is the point. -/
def text (x : FracQuantity) : List Nat :=
  (match x.whole.sign with | none => [] | some false => [43] | some true => [45]) ++ x.whole.digits ++
    (if x.frac = [] then [] else 46 :: x.frac) ++ (if x.whole.space then [32] else []) ++ x.whole.word

/-- The whole quantity is well formed and the fraction is made of digits. -/
def Ok (x : FracQuantity) : Prop := x.whole.Ok ∧ DigitsOf 0 128 x.frac

/-- The fraction in ten-millionths. -/
def tenMillionths (x : FracQuantity) : Int := value x.frac * 10 ^ (7 - x.frac.length)

/-- The sign of the number. -/
def sgn (x : FracQuantity) : Int := if x.whole.sign = some true then -1 else 1

end FracQuantity

/-- What `k` ten-millionths of a unit are: months, days and microseconds. Fractions of a year are cut off to months,
fractions of a month (of 30 days) and of a week become days and a rest of a day; nothing else is lost, except that parts
of microseconds are rounded. Decades, centuries and millennia may lose a month when the fraction is a whole number of
months. -/
def FractionIs (u : IvUnit) (k m d s : Int) : Prop :=
  match u with
  | .microsecond => m = 0 ∧ d = 0 ∧ -5000002 ≤ s * 10000000 - k ∧ s * 10000000 - k ≤ 5000002
  | .millisecond => m = 0 ∧ d = 0 ∧ -5000 ≤ s * 10000 - k ∧ s * 10000 - k ≤ 5000
  | .second => m = 0 ∧ d = 0 ∧ -5 ≤ s * 10 - k ∧ s * 10 - k ≤ 5
  | .minute => m = 0 ∧ d = 0 ∧ s = k * 6
  | .hour => m = 0 ∧ d = 0 ∧ s = k * 360
  | .day => m = 0 ∧ d = 0 ∧ s = k * 8640
  | .week => m = 0 ∧ d = k * 7 / 10000000 ∧ s = (k * 7 % 10000000) * 8640
  | .month => m = 0 ∧ d = k * 30 / 10000000 ∧ s = (k * 30 % 10000000) * 8640
  | .year => m = k * 12 / 10000000 ∧ d = 0 ∧ s = 0
  | _ => (m = k * u.months / 10000000 ∨ k * u.months % 10000000 = 0 ∧ m = k * u.months / 10000000 - 1 ∧ 0 < k) ∧
      d = 0 ∧ s = 0

/-- What a quantity is: months, days and microseconds. -/
def QuantityIs (x : FracQuantity) (y : Int × Int × Int) : Prop :=
  ∃ m d s, FractionIs x.whole.unit x.tenMillionths m d s ∧
    y = (x.sgn * (value x.whole.digits * x.whole.unit.months + m), x.sgn * (value x.whole.digits * x.whole.unit.days + d),
      x.sgn * (value x.whole.digits * x.whole.unit.micros + s))

/-- Two quantities that may stand in one text: of different units, and not seconds with a fraction besides milliseconds
or microseconds. -/
def Apart (x y : FracQuantity) : Prop :=
  x.whole.unit ≠ y.whole.unit ∧
    ¬ (x.whole.unit = .second ∧ x.tenMillionths ≠ 0 ∧ (y.whole.unit = .millisecond ∨ y.whole.unit = .microsecond)) ∧
    ¬ (y.whole.unit = .second ∧ y.tenMillionths ≠ 0 ∧ (x.whole.unit = .millisecond ∨ x.whole.unit = .microsecond))

instance (x y : FracQuantity) : Decidable (Apart x y) := by unfold Apart; infer_instance

/-- A text that can be read: no fraction of more than seven digits, and no two quantities in each other's way. -/
def FractionsFit (xs : List FracQuantity) : Prop := (∀ x ∈ xs, x.frac.length ≤ 7) ∧ xs.Pairwise Apart

instance (xs : List FracQuantity) : Decidable (FractionsFit xs) := by unfold FractionsFit; infer_instance

/-- The text of the quantities, with the word `ago` at the end or not. -/
def fractionsText (xs : List FracQuantity) (ago : Option (List Nat)) : List Nat :=
  spaced (xs.map FracQuantity.text ++ ago.toList)

/-- At most two thousand million months, days, minutes and seconds. -/
def Modest (xs : List FracQuantity) : Prop :=
  size IvUnit.months (xs.map FracQuantity.whole) ≤ 2000000000 ∧ size IvUnit.days (xs.map FracQuantity.whole) ≤ 2000000000 ∧
    size wholeMinutes (xs.map FracQuantity.whole) ≤ 2000000000 ∧
    size subMinute (xs.map FracQuantity.whole) ≤ 2000000000000000 ∧ ∀ x ∈ xs, value x.whole.digits ≤ 2147483647

/-- Sums of the parts. -/
def sumParts (l : List (Int × Int × Int)) : Int × Int × Int :=
  ((l.map fun y => y.1).sum, (l.map fun y => y.2.1).sum, (l.map fun y => y.2.2).sum)

end Spec
