import Verif.Spec.Quantities

/-!
# Specification: one sign for all numbers of an interval
-/

namespace Spec

/-- Units that are added up before the sign is put to them: years and longer units, days and weeks, seconds and shorter units. -/
def IvUnit.kin : IvUnit → IvUnit
  | .year | .decade | .century | .millennium => .year
  | .day | .week => .day
  | .second | .millisecond | .microsecond => .second
  | u => u

/-- The first number has a minus sign and is the only one with a sign. -/
def LoneSign : List Quantity → Prop
  | [] => False
  | q :: r => q.sign = some true ∧ ∀ q' ∈ r, q'.sign = none

/-- The first unit has no kin in the text. -/
def FirstAlone : List Quantity → Prop
  | [] => True
  | q :: r => ∀ q' ∈ r, q'.unit.kin ≠ q.unit.kin

instance (qs : List Quantity) : Decidable (LoneSign qs) := by unfold LoneSign; split <;> infer_instance
instance (qs : List Quantity) : Decidable (FirstAlone qs) := by unfold FirstAlone; split <;> infer_instance

end Spec
