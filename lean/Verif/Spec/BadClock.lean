import Verif.Spec.Vocabulary
import Verif.Spec.ClockInput

/-!
# Specification: words that are no clock time
-/

namespace Spec

/-- The word is, or starts with, a clock time `hh:mm:ss[.f]` whose fields satisfy `P`. -/
def ClockWord (P : Nat → Nat → Nat → Int → Prop) (x : List Nat) : Prop :=
  ∃ hh mm ss f r, x = hmsText hh mm ss f ++ r ∧ (Digits hh ∧ hh ≠ []) ∧ (Digits mm ∧ mm ≠ []) ∧ (Digits ss ∧ ss ≠ []) ∧
    Digits (f.getD []) ∧ (∀ b, r.head? = some b → ¬ Digit b ∧ b ≠ 58 ∧ b ≠ 46) ∧
    ∀ us, NearestMicros (f.getD []) us → P (value hh) (value mm) (value ss) us

/-- Its fields are out of range: later than 24:00:00, or more than 59 minutes or 60 seconds. -/
def BadClock : List Nat → Prop := ClockWord fun h m s us => ¬ ClockInput h m s us

/-- It has more than 59 minutes or 60 seconds. -/
def BadMinutes : List Nat → Prop := ClockWord fun _ m s _ => 59 < m ∨ 60 < s

end Spec
