import Verif.Spec.Clock
import Verif.Model.Types

/-!
# Specification: starts of calendar and clock units

`DateUnit` is the unit enumeration of the public API; only its constructors are used here.
-/

namespace Spec
open Pg

/-- Weekday of a day, Monday = 0 … Sunday = 6 (2000-01-01, day number 0, is a Saturday). -/
def weekday (n : Int) : Int := (n + 5) % 7

/-- Midnight. -/
def Clock.Midnight (t : Clock) : Prop := t.h = 0 ∧ t.mi = 0 ∧ t.s = 0 ∧ t.us = 0

/-- The reading `(c, t)` is the first instant of a unit. Years are astronomical: a decade starts
in a year divisible by 10, a century in a year `1 mod 100`, a millennium in a year `1 mod 1000`. -/
def UnitStart : DateUnit → YMD → Clock → Prop
  | .microsec, _, _ => True
  | .millisec, _, t => t.us % 1000 = 0
  | .second, _, t => t.us = 0
  | .minute, _, t => t.s = 0 ∧ t.us = 0
  | .hour, _, t => t.mi = 0 ∧ t.s = 0 ∧ t.us = 0
  | .day, _, t => t.Midnight
  | .week, c, t => t.Midnight ∧ weekday (dayNumber c) = 0
  | .month, c, t => t.Midnight ∧ c.d = 1
  | .quarter, c, t => t.Midnight ∧ c.d = 1 ∧ (c.m = 1 ∨ c.m = 4 ∨ c.m = 7 ∨ c.m = 10)
  | .year, c, t => t.Midnight ∧ c.d = 1 ∧ c.m = 1
  | .decade, c, t => t.Midnight ∧ c.d = 1 ∧ c.m = 1 ∧ c.y % 10 = 0
  | .century, c, t => t.Midnight ∧ c.d = 1 ∧ c.m = 1 ∧ c.y % 100 = 1
  | .millennium, c, t => t.Midnight ∧ c.d = 1 ∧ c.m = 1 ∧ c.y % 1000 = 1
  | _, _, _ => False

/-- The instant `x` is the start of a unit `u`. -/
def IsUnitStart (u : DateUnit) (x : Int) : Prop :=
  ∃ (c : YMD) (t : Clock), c.Real ∧ t.Real ∧ instant c t = x ∧ UnitStart u c t

/-- `g` is the start of the unit containing `x`: the latest unit start not after `x`. -/
def UnitFloor (u : DateUnit) (x g : Int) : Prop :=
  IsUnitStart u g ∧ g ≤ x ∧ ∀ s, IsUnitStart u s → s ≤ x → s ≤ g

/-- The units `truncate` accepts, except weeks. -/
def TruncUnit (u : DateUnit) : Prop :=
  u ∈ [DateUnit.microsec, .millisec, .second, .minute, .hour, .day, .month, .quarter, .year,
       .decade, .century, .millennium]

/-- Unit `a` is subdivided by unit `b` (every start of an `a` is a start of a `b`). -/
def Nested (a b : DateUnit) : Prop := ∀ x, IsUnitStart a x → IsUnitStart b x

end Spec
