import Verif.Spec.Words

/-!
# Specification: the twelve-hour clock on input
-/

namespace Spec

/-- The word `am` or `pm` in any mixture of small and capital letters. -/
def MeridiemWord (pm : Bool) (w : List Nat) : Prop := SameButCase w (if pm then [112, 109] else [97, 109])

/-- The hour of the day of hour `h` on a twelve-hour clock: 12 is the first hour of each half, and there are
no hours above 12. -/
def hour24 (pm : Bool) (h : Nat) : Option Nat :=
  if h ≤ 12 then some (h % 12 + if pm then 12 else 0) else none

example : hour24 false 12 = some 0 ∧ hour24 true 12 = some 12 ∧ hour24 false 11 = some 11 ∧
    hour24 true 11 = some 23 ∧ hour24 true 13 = none := by decide

end Spec
