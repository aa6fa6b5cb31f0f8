import Verif.Spec.Units

/-!
# Specification: lengths of units
-/

namespace Spec
open Pg

/-- A number of months by which the starts of a unit are moved to starts of that unit again. -/
def unitMonths : DateUnit → Int
  | .quarter => 3 | .year => 12 | .decade => 120 | .century => 1200 | .millennium => 12000
  | _ => 1

/-- A number of microseconds by which the starts of a unit of the clock are moved to starts of that unit again. -/
def unitMicros : DateUnit → Int
  | .millisec => 1000 | .second => 1000000 | .minute => 60000000 | .hour => 3600000000 | .day => 86400000000
  | _ => 1

/-- Units up to the day. -/
def ClockUnit (u : DateUnit) : Prop := u ∈ [DateUnit.microsec, .millisec, .second, .minute, .hour, .day]

end Spec
