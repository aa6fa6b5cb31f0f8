import Verif.Spec.Units

/-!
# Specification: fields that truncation keeps

`SECOND`, `MILLISECONDS` and `MICROSECONDS` include the fraction of the second, so only truncation to microseconds keeps
them.
-/

namespace Spec
open Pg

/-- The fields of the calendar day. -/
def dayFields : List DateUnit := [.day, .month, .quarter, .year, .decade, .century, .millennium, .week, .isoYear, .dow, .isoDow, .doy]

/-- The fields that do not change within one unit `u`. -/
def keptFields : DateUnit → List DateUnit
  | .microsec => .second :: .millisec :: .microsec :: .julian :: .minute :: .hour :: dayFields
  | .millisec | .second | .minute => .minute :: .hour :: dayFields
  | .hour => .hour :: dayFields
  | .day => dayFields
  | .month => [.month, .quarter, .year, .decade, .century, .millennium]
  | .quarter => [.quarter, .year, .decade, .century, .millennium]
  | .year => [.year, .decade, .century, .millennium]
  | .decade => [.decade]
  | .century => [.century, .millennium]
  | .millennium => [.millennium]
  | _ => []

/-- The fields that count parts of a unit `u` from its start, and their value there. -/
def startFields : DateUnit → List (DateUnit × Int)
  | .minute => [(.second, 0), (.millisec, 0), (.microsec, 0)]
  | .hour => [(.second, 0), (.millisec, 0), (.microsec, 0), (.minute, 0)]
  | .day => [(.second, 0), (.millisec, 0), (.microsec, 0), (.minute, 0), (.hour, 0)]
  | .month | .quarter => [(.second, 0), (.millisec, 0), (.microsec, 0), (.minute, 0), (.hour, 0), (.day, 1)]
  | .year | .decade | .century | .millennium =>
    [(.second, 0), (.millisec, 0), (.microsec, 0), (.minute, 0), (.hour, 0), (.day, 1), (.month, 1), (.quarter, 1), (.doy, 1)]
  | _ => []

end Spec
