import Verif.Spec.Replace
import Verif.Spec.FirstDate

/-!
# Specification: one numeric date in place of another
-/

namespace Spec

/-- The texts `s` and `t` start with numeric dates, possibly after blanks, and are equal afterwards. The three numbers of the
dates have the same lengths; the separators may differ. A middle number of three digits is excluded: after the year it would be a day of
the year. -/
structure Redated (a b c a' b' c' : List Nat) (s t : List Nat) : Prop where
  texts : ∃ w d d' r, s = w ++ (numericDate d a b c ++ r) ∧ t = w ++ (numericDate d' a' b' c' ++ r) ∧ (∀ x ∈ w, White x) ∧ Separator d ∧
    Separator d' ∧ ∀ y, r.head? = some y → ¬ Digit y ∧ y ≠ d ∧ y ≠ d'
  old : ThreeNumbers a b c
  new : ThreeNumbers a' b' c'
  length : a'.length = a.length ∧ b'.length = b.length ∧ c'.length = c.length
  middle : b.length ≠ 3
  small : value a' ≤ 2147483647 ∧ value b' ≤ 2147483647 ∧ value c' ≤ 2147483647

end Spec
