import Verif.Spec.Clock
import Verif.Model.Types

/-!
# Specification of interval lengths

An interval is a number of months, days and microseconds. Its *length* counts a month as 30 days
and a day as 24 hours.
-/

namespace Spec

/-- Length in microseconds of `months` 30-day months, `days` 24-hour days and `us` microseconds. -/
def spanMicros (months days us : Int) : Int := (months * 30 + days) * dayMicros + us

/-- `x` and `y` are not of opposite sign. -/
def SameSign (x y : Int) : Prop := (0 ≤ x ∧ 0 ≤ y) ∨ (x ≤ 0 ∧ y ≤ 0)

instance (x y : Int) : Decidable (SameSign x y) := inferInstanceAs (Decidable (_ ∨ _))

/-- All three non-negative or all three non-positive. -/
def SameSign3 (x y z : Int) : Prop := (0 ≤ x ∧ 0 ≤ y ∧ 0 ≤ z) ∨ (x ≤ 0 ∧ y ≤ 0 ∧ z ≤ 0)

instance (x y z : Int) : Decidable (SameSign3 x y z) := inferInstanceAs (Decidable (_ ∨ _))

end Spec

namespace Spec

/-- `r` is the multiple of `unit` nearest to `v`, a tie going away from zero. -/
def Nearest (unit v r : Int) : Prop :=
  r % unit = 0 ∧ -unit ≤ 2 * (r - v) ∧ 2 * (r - v) ≤ unit ∧
  (2 * (r - v) = unit → 0 ≤ v) ∧ (2 * (r - v) = -unit → v ≤ 0)

instance (u v r : Int) : Decidable (Nearest u v r) := inferInstanceAs (Decidable (_ ∧ _ ∧ _ ∧ _ ∧ _))

/-- `r` is `v` truncated toward zero to a multiple of `unit`. -/
def TruncZero (unit v r : Int) : Prop :=
  r % unit = 0 ∧ (0 ≤ v → 0 ≤ r ∧ r ≤ v ∧ v < r + unit) ∧ (v ≤ 0 → r ≤ 0 ∧ v ≤ r ∧ r - unit < v)

instance (u v r : Int) : Decidable (TruncZero u v r) := inferInstanceAs (Decidable (_ ∧ _ ∧ _))

/-- The fields of SQL interval qualifiers, largest first. -/
inductive SqlField where
  | year | month | day | hour | minute | second
  deriving DecidableEq, Repr

/-- Position, largest field first. -/
def SqlField.rank : SqlField → Nat
  | .year => 0 | .month => 1 | .day => 2 | .hour => 3 | .minute => 4 | .second => 5

/-- Bit of the field in PostgreSQL's interval range mask (`utils/datetime.h`: MONTH 1, YEAR 2,
DAY 3, HOUR 10, MINUTE 11, SECOND 12). -/
def SqlField.bit : SqlField → Nat
  | .year => 4 | .month => 2 | .day => 8 | .hour => 1024 | .minute => 2048 | .second => 4096

/-- All fields. -/
def SqlField.all : List SqlField := [.year, .month, .day, .hour, .minute, .second]

/-- Mask of the fields from `a` down to `b`. -/
def rangeMask (a b : SqlField) : Nat :=
  (SqlField.all.filter (fun f => a.rank ≤ f.rank && f.rank ≤ b.rank)).foldl (fun s f => s + f.bit) 0

/-- `a TO b` (or the single field `a = b`) is an SQL interval qualifier: year-month fields and
day-time fields do not mix. -/
def SqlRange (a b : SqlField) : Prop :=
  a.rank ≤ b.rank ∧ (b.rank ≤ 1 ∨ 2 ≤ a.rank)

instance (a b : SqlField) : Decidable (SqlRange a b) := inferInstanceAs (Decidable (_ ∧ _))

/-- Clearing everything below field `f`: `(m, d, t)` becomes `(m', d', t')`. -/
def ClearBelow (f : SqlField) (m d t m' d' t' : Int) : Prop :=
  match f with
  | .year => TruncZero 12 m m' ∧ d' = 0 ∧ t' = 0
  | .month => m' = m ∧ d' = 0 ∧ t' = 0
  | .day => m' = m ∧ d' = d ∧ t' = 0
  | .hour => m' = m ∧ d' = d ∧ TruncZero 3600000000 t t'
  | .minute => m' = m ∧ d' = d ∧ TruncZero 60000000 t t'
  | .second => m' = m ∧ d' = d ∧ t' = t

end Spec

namespace Spec
/-- Truncating the interval `(m, d, t)` to a unit gives `(m', d', t')`: the field holding the unit
is truncated toward zero, smaller fields are cleared, larger ones kept. -/
def IntervalTrunc (u : Pg.DateUnit) (m d t m' d' t' : Int) : Prop :=
  match u with
  | .millennium => TruncZero 12000 m m' ∧ d' = 0 ∧ t' = 0
  | .century => TruncZero 1200 m m' ∧ d' = 0 ∧ t' = 0
  | .decade => TruncZero 120 m m' ∧ d' = 0 ∧ t' = 0
  | .year => TruncZero 12 m m' ∧ d' = 0 ∧ t' = 0
  | .quarter => TruncZero 3 m m' ∧ d' = 0 ∧ t' = 0
  | .month => m' = m ∧ d' = 0 ∧ t' = 0
  | .day => m' = m ∧ d' = d ∧ t' = 0
  | .hour => m' = m ∧ d' = d ∧ TruncZero 3600000000 t t'
  | .minute => m' = m ∧ d' = d ∧ TruncZero 60000000 t t'
  | .second => m' = m ∧ d' = d ∧ TruncZero 1000000 t t'
  | .millisec => m' = m ∧ d' = d ∧ TruncZero 1000 t t'
  | .microsec => m' = m ∧ d' = d ∧ t' = t
  | _ => False

end Spec
