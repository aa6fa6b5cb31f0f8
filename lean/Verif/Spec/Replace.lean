import Verif.Spec.BadClock
import Verif.Spec.Special
import Verif.Spec.DateInput

/-!
# Specification: one clock time in place of another
-/

namespace Spec

/-- Three numbers, each with at least one digit. -/
def ThreeNumbers (hh mm ss : List Nat) : Prop := (Digits hh ∧ hh ≠ []) ∧ (Digits mm ∧ mm ≠ []) ∧ (Digits ss ∧ ss ≠ [])

/-- What may stand directly before a clock time: nothing, the letter `T`, or a numeric date and the letter `T`. -/
inductive BeforeClock : List Nat → Prop where
  | nothing : BeforeClock []
  | t (b) : b = 84 ∨ b = 116 → BeforeClock [b]
  | date (b d x y z) : b = 84 ∨ b = 116 → Separator d → ThreeNumbers x y z → BeforeClock (numericDate d x y z ++ [b])

/-- The texts `s` and `t` differ in a clock time: `hh:mm:ss` in one and `hh':mm':ss'` in the other, of the same length and with
the same fraction of a second. It stands at the beginning of a word or after a `T`, and no word before it ends in a sign. The second
one is a time of day, without superfluous digits. -/
structure Retimed (hh mm ss hh' mm' ss' : List Nat) (s t : List Nat) : Prop where
  texts : ∃ a r f z, s = a ++ (r ++ (hmsText hh mm ss f ++ z)) ∧ t = a ++ (r ++ (hmsText hh' mm' ss' f ++ z)) ∧ BeforeClock r ∧
    (a = [] ∨ ∃ x b, a = x ++ [b] ∧ White b) ∧ (∀ w ∈ words a, ¬ EndsInSign w) ∧ Digits (f.getD []) ∧
    (∀ b, z.head? = some b → ¬ Digit b ∧ b ≠ 58 ∧ b ≠ 46) ∧
    ∀ us, NearestMicros (f.getD []) us → ClockInput (value hh') (value mm') (value ss') us
  old : ThreeNumbers hh mm ss
  new : ThreeNumbers hh' mm' ss'
  length : hh'.length + mm'.length + ss'.length = hh.length + mm.length + ss.length
  short : hh'.length ≤ 10 ∧ mm'.length ≤ 10 ∧ ss'.length ≤ 10

/-- The hours are both before noon, both twelve, or both later. -/
def SameHalf (h h' : Nat) : Prop := (h < 12 ↔ h' < 12) ∧ (h = 12 ↔ h' = 12)

/-- What the clock time moves by. -/
def clockShift (hh mm ss hh' mm' ss' : List Nat) : Int :=
  clockValue (value hh') (value mm') (value ss') 0 - clockValue (value hh) (value mm) (value ss) 0

end Spec
