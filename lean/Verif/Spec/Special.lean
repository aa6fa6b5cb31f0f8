import Verif.Spec.Vocabulary

/-!
# Specification: runs of letters in a text
-/

namespace Spec

/-- `w` is a run of letters of the text that is not part of a longer one. -/
def LetterRun (w s : List Nat) : Prop :=
  ∃ a c, s = a ++ (w ++ c) ∧ w ≠ [] ∧ (∀ b ∈ w, Letter b) ∧ (∀ l, a.getLast? = some l → ¬ Letter l) ∧
    ∀ l, c.head? = some l → ¬ Letter l

/-- The same after a minus sign, with or without white space between. -/
def MinusRun (w s : List Nat) : Prop :=
  ∃ a b c, s = a ++ 45 :: (b ++ (w ++ c)) ∧ w ≠ [] ∧ (∀ x ∈ w, Letter x) ∧ (∀ x ∈ b, White x = true) ∧
    ∀ l, c.head? = some l → ¬ Letter l

/-- One of the runs of letters of the text is in the list; only its first ten letters count. -/
def Says (l : List (List Nat)) (s : List Nat) : Prop := ∃ w, LetterRun w s ∧ Known l w

/-- The labels of numbers. -/
def labelWords : List (List Nat) :=
  [b!"y", b!"m", b!"d", b!"h", b!"mm", b!"s", b!"j", b!"jd", b!"julian", b!"dow", b!"doy", b!"isodow", b!"t"]

/-- The last word of the text does not end in a sign. -/
def NoLastSign (s : List Nat) : Prop := ∀ w, (words s).getLast? = some w → ¬ EndsInSign w

end Spec
