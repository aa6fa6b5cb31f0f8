import Verif.Spec.Twice

/-!
# Specification: words of a date that may stand anywhere
-/

namespace Spec

/-- A word that says something on its own, or nothing: a clock time, a weekday, `am` or `pm`, `ad` or `bc`, and the words `at`
and `on`. -/
def Floating (w : List Nat) : Prop :=
  Mark.clock.Is w ∨ Mark.weekday.Is w ∨ Mark.meridiem.Is w ∨ Mark.era.Is w ∨ SameButCase w b!"at" ∨ SameButCase w b!"on"

/-- A word whose meaning may depend on the words before it: the name of a month, or a number of at most five digits. -/
def Anchored (w : List Nat) : Prop := Mark.month.Is w ∨ (w ≠ [] ∧ Digits w ∧ w.length ≤ 5)

/-- Neighbouring words have been exchanged, any number of times, each time one of them a floating word. -/
inductive Moved : List (List Nat) → List (List Nat) → Prop where
  | refl (l) : Moved l l
  | swap (a b l) : Floating a → Moved (a :: b :: l) (b :: a :: l)
  | cons (a) {l l'} : Moved l l' → Moved (a :: l) (a :: l')
  | symm {l l'} : Moved l l' → Moved l' l
  | trans {l l' l''} : Moved l l' → Moved l' l'' → Moved l l''

/-- A clock time, a weekday, `am` or `pm`, or `ad` or `bc` stands somewhere before a date in one word, neither of them nor
any word between them preceded by a sign. -/
def BeforeDate (s : List Nat) : Prop :=
  ∃ k l1 x l2 y l3, words s = l1 ++ x :: (l2 ++ y :: l3) ∧ (k = .clock ∨ k = .weekday ∨ k = .meridiem ∨ k = .era) ∧ Mark.Is x k ∧
    JoinedDate y ∧ (∀ w ∈ l1, ¬ EndsInSign w) ∧ ∀ w ∈ l2, ¬ EndsInSign w

end Spec
