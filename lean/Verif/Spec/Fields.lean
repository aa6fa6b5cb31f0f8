import Verif.Spec.Clock

/-!
# Specification: calendar fields larger than a month

Years are astronomical (1 BC is 0, 2 BC is -1, …).
-/

namespace Spec

/-- `f` is the AD year, or minus the BC year, of the astronomical year `y`; there is no year 0. -/
def YearField (y f : Int) : Prop := (0 < y ∧ f = y) ∨ (y ≤ 0 ∧ f = -(1 - y))

/-- `q` is the quarter of month `m`: months 3q-2 to 3q. -/
def QuarterField (m q : Int) : Prop := 3 * q - 2 ≤ m ∧ m ≤ 3 * q

/-- `d` is the decade of year `y`: years 10d to 10d+9. -/
def DecadeField (y d : Int) : Prop := 10 * d ≤ y ∧ y ≤ 10 * d + 9

/-- `c` is the period of `n` years containing year `y`: AD period `c` is the years n(c-1)+1 to nc,
BC period `-c` the years nc BC to n(c-1)+1 BC; there is no period 0. -/
def PeriodField (n y c : Int) : Prop :=
  (0 < y ∧ n * (c - 1) + 1 ≤ y ∧ y ≤ n * c) ∨
  (y ≤ 0 ∧ n * (-c - 1) + 1 ≤ 1 - y ∧ 1 - y ≤ n * (-c))

end Spec
