import Verif.Spec.Clock
import Mathlib.Data.Rat.Floor

/-!
# Specification: float seconds
-/

namespace Spec

/-- `k` is an admissible microsecond count for `q` seconds: it is exactly `n` if `q` is within a
quarter microsecond of `n` microseconds (up to about 31 years), and in general (up to `2^40`
seconds) differs from `q` by at most half a microsecond plus the relative error `2^-53` of one
binary64 multiplication. -/
def MicrosOf (q : Rat) (k : Int) : Prop :=
  (∀ n : Int, -1000000000000000 ≤ n → n ≤ 1000000000000000 → |q - n / 1000000| ≤ 1 / 4000000 → k = n) ∧
  (|q| ≤ 2 ^ 40 → |(k : Rat) - q * 1000000| ≤ 1 / 2 + |q * 1000000| / 2 ^ 53 + 1 / 2 ^ 100)

/-- The arguments name a time of day: 24:00:00 and second 60 are allowed. -/
def ClockArgs (h mi : Int) (q : Rat) : Prop :=
  0 ≤ h ∧ h ≤ 24 ∧ 0 ≤ mi ∧ mi ≤ 59 ∧ 0 ≤ q ∧ q ≤ 60 ∧ (h = 24 → mi = 0 ∧ q = 0)

end Spec
