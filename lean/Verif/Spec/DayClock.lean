import Verif.Spec.ClockValue
import Verif.Spec.Ornament

/-!
# Specification: a text and a clock time behind it
-/

namespace Spec

/-- The text `t` is the text `s`, a space and the clock time `hh:mm:ss` with the fraction `f`. No word of `s` ends in a sign, and `s`
does not end in a blank or a decimal point. -/
def ThenClock (hh mm ss : List Nat) (f : Option (List Nat)) (s t : List Nat) : Prop :=
  ThreeNumbers hh mm ss ∧ Digits (f.getD []) ∧ EndsPlainly s ∧ (∀ w ∈ words s, ¬ EndsInSign w) ∧ t = s ++ 32 :: hmsText hh mm ss f

end Spec
