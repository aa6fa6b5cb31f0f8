import Verif.Spec.Clock

/-!
# Where months, days and a duration lead
-/

namespace Spec

/-- From `t`, `m` calendar months, then `d` days, then `us` microseconds lead to `r`, and no step leaves the
range of timestamps. -/
def Lands (t m d us r : Int) : Prop :=
  ∃ c k, c.Real ∧ k.Real ∧ instant c k = t ∧ TsRange t ∧ TsRange (instant (c.addMonths m) k) ∧
    TsRange (instant (c.addMonths m) k + d * dayMicros) ∧ r = instant (c.addMonths m) k + d * dayMicros + us ∧ TsRange r

end Spec
