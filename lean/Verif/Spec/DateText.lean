import Verif.Spec.Text
import Verif.Spec.Clock
import Verif.Model.Styles

/-!
# Text of dates, clock times and timestamps

Which fields are printed, in which order and with which separators. ASCII codes: 32 space,
45 `-`, 46 `.`, 47 `/`, 58 `:`, 84 `T`.
-/

namespace Spec
open Pg (DateStyle DateOrder)

/-- Two digits. -/
def two (v : Int) : List Nat := padText 2 v.natAbs

/-- The year, at least four digits; years before 1 AD are counted backwards from 1 BC. -/
def yearText (y : Int) : List Nat := padText 4 (if 0 < y then y else 1 - y).natAbs

/-- ` BC` for years before 1 AD. -/
def eraText (y : Int) : List Nat := if y ≤ 0 then [32, 66, 67] else []

/-- Year, month and day in the order of the style. -/
def dayText (style : DateStyle) (order : DateOrder) (c : YMD) : List Nat :=
  match style, order with
  | .iso, _ | .xsd, _ => yearText c.y ++ ([45] ++ (two c.m ++ ([45] ++ two c.d)))
  | .sql, .dmy => two c.d ++ ([47] ++ (two c.m ++ ([47] ++ yearText c.y)))
  | .sql, _ => two c.m ++ ([47] ++ (two c.d ++ ([47] ++ yearText c.y)))
  | .german, _ => two c.d ++ ([46] ++ (two c.m ++ ([46] ++ yearText c.y)))
  | .postgres, .dmy => two c.d ++ ([45] ++ (two c.m ++ ([46] ++ yearText c.y)))
  | .postgres, _ => two c.m ++ ([46] ++ (two c.d ++ ([46] ++ yearText c.y)))

/-- Text of a date. -/
def dateText (style : DateStyle) (order : DateOrder) (c : YMD) : List Nat :=
  dayText style order c ++ eraText c.y

/-- Text of a clock reading. -/
def clockText (t : Clock) : List Nat :=
  two t.h ++ ([58] ++ (two t.mi ++ ([58] ++ secText true t.s.natAbs t.us.natAbs)))

/-- Three-letter names of the months, January first. -/
def monthNames : List (List Nat) :=
  [[74, 97, 110], [70, 101, 98], [77, 97, 114], [65, 112, 114], [77, 97, 121], [74, 117, 110],
   [74, 117, 108], [65, 117, 103], [83, 101, 112], [79, 99, 116], [78, 111, 118], [68, 101, 99]]

/-- Three-letter names of the days of the week, Sunday first. -/
def dayNames : List (List Nat) :=
  [[83, 117, 110], [77, 111, 110], [84, 117, 101], [87, 101, 100], [84, 104, 117], [70, 114, 105],
   [83, 97, 116]]

/-- Name of month `m` (1-12). -/
def monthNameText (m : Int) : List Nat := monthNames.getD (m - 1).toNat []

/-- Name of the day of the week; 2000-01-01 was a Saturday. -/
def dayNameText (c : YMD) : List Nat := dayNames.getD ((dayNumber c + 6) % 7).toNat []

/-- Text of an instant without the era. -/
def instantText (style : DateStyle) (order : DateOrder) (c : YMD) (t : Clock) : List Nat :=
  match style, order with
  | .xsd, _ => dayText .iso order c ++ ([84] ++ clockText t)
  | .postgres, .dmy => dayNameText c ++ ([32] ++ ((two c.d ++ ([32] ++ monthNameText c.m)) ++
      ([32] ++ (clockText t ++ ([32] ++ yearText c.y)))))
  | .postgres, _ => dayNameText c ++ ([32] ++ ((monthNameText c.m ++ ([32] ++ two c.d)) ++
      ([32] ++ (clockText t ++ ([32] ++ yearText c.y)))))
  | style, _ => dayText style order c ++ ([32] ++ clockText t)

/-- Text of a timestamp. -/
def timestampText (style : DateStyle) (order : DateOrder) (c : YMD) (t : Clock) : List Nat :=
  instantText style order c t ++ eraText c.y

end Spec
