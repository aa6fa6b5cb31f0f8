import Verif.Spec.Vocabulary
import Verif.Spec.DateInput

/-!
# Specification: texts that start with a numeric date
-/

namespace Spec

/-- The first word of the text is, or starts with, three numbers of digits with the same separator, such as `2024-01-02` or
`2024-01-02T10:00`. A middle number of three digits is excluded: after the year it would be a day of the year. -/
def StartsWithDate (a b c s : List Nat) : Prop :=
  ∃ x d r l, words s = x :: l ∧ x = numericDate d a b c ++ r ∧ Separator d ∧ (Digits a ∧ a ≠ []) ∧ (Digits b ∧ b ≠ []) ∧
    (Digits c ∧ c ≠ []) ∧ b.length ≠ 3 ∧ ∀ y, r.head? = some y → ¬ Digit y ∧ y ≠ d

/-- One of the words of the text `s` is `bc`, or `ad`, and no word before it ends in a sign. -/
def HasEra (bc : Bool) (s : List Nat) : Prop :=
  ∃ l1 w l2, words s = l1 ++ w :: l2 ∧ SameButCase w (if bc then b!"bc" else b!"ad") ∧ ∀ x ∈ l1, ¬ EndsInSign x

end Spec
