import Verif.Spec.Shuffle
import Verif.Spec.Special

/-!
# Specification: texts with one number
-/

namespace Spec

/-- One word is a number of at most five digits; all other words are letters only, and none of them is a label of a Julian day
or the word for midnight. -/
def SingleNumber (s : List Nat) : Prop :=
  ∃ l1 w l2, words s = l1 ++ w :: l2 ∧ w ≠ [] ∧ Digits w ∧ w.length ≤ 5 ∧
    ∀ x ∈ l1 ++ l2, (∀ b ∈ x, Letter b) ∧ ¬ Known [b!"j", b!"jd", b!"julian", b!"allballs"] x

end Spec
