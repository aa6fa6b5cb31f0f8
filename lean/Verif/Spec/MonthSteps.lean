import Verif.Spec.Clock

/-!
# Months counted through
-/

namespace Spec

/-- The number of a day's month when all months are counted through from January of year 0. -/
def YMD.monthCount (c : YMD) : Int := c.y * 12 + (c.m - 1)

end Spec
