import Verif.Spec.MonthNames
import Verif.Spec.Meridiem
import Verif.Spec.Text

/-!
# Specification: a part of a date or time that is given twice

A text is seen as its words (`Spec.words`), and some words announce what they are.
-/

namespace Spec

/-- What a word can be recognised as. -/
inductive Mark where
  | clock | date | month | weekday | meridiem | era

def Digit (b : Nat) : Prop := 48 ≤ b ∧ b ≤ 57
def Letter (b : Nat) : Prop := (65 ≤ b ∧ b ≤ 90) ∨ (97 ≤ b ∧ b ≤ 122)
/-- `-`, `/` or `.` -/
def Separator (b : Nat) : Prop := b = 45 ∨ b = 47 ∨ b = 46

/-- A date in one word. -/
inductive JoinedDate : List Nat → Prop where
  /-- `2024-01-02`, and anything else of digits and the same separator in this place -/
  | numbers (d : Nat) (a b r : List Nat) : Separator d → a ≠ [] → Digits a → b ≠ [] → Digits b → (∀ x ∈ r, x = d ∨ Digit x) →
      JoinedDate (a ++ d :: (b ++ d :: r))
  /-- `2-jan-2024`, and anything else that starts with digits, a separator and a letter -/
  | named (d : Nat) (a : List Nat) (l : Nat) (r : List Nat) : Separator d → a ≠ [] → Digits a → Letter l →
      (∀ x ∈ r, x = d ∨ Letter x ∨ Digit x) → JoinedDate (a ++ d :: l :: r)
  /-- `jan-02-2024`, and anything else that starts with letters and a separator -/
  | nameFirst (d : Nat) (a r : List Nat) : Separator d → a ≠ [] → (∀ x ∈ a, Letter x) →
      (∀ x ∈ r, Letter x ∨ Digit x ∨ Separator x ∨ x = 43 ∨ x = 58 ∨ x = 95) → JoinedDate (a ++ d :: r)

/-- The short weekday names. -/
def shortWeekdayWords : List (List Nat × Int) :=
  [(b!"sun", 0), (b!"mon", 1), (b!"tue", 2), (b!"tues", 2), (b!"wed", 3), (b!"weds", 3), (b!"thu", 4), (b!"thur", 4),
   (b!"thurs", 4), (b!"fri", 5), (b!"sat", 6)]

/-- The word `w` is recognised as the given part. Small and capital letters do not matter. -/
def Mark.Is (w : List Nat) : Mark → Prop
  | .clock => ∃ a r, w = a ++ 58 :: r ∧ a ≠ [] ∧ Digits a ∧ ∀ x ∈ r, Digit x ∨ x = 58 ∨ x = 46
  | .date => JoinedDate w
  | .month => ∃ m, MonthWord m w
  | .weekday => ∃ s n, (s, n) ∈ weekdayWords ++ shortWeekdayWords ∧ SameButCase w s
  | .meridiem => ∃ pm, MeridiemWord pm w
  | .era => SameButCase w b!"ad" ∨ SameButCase w b!"bc"

/-- The last byte of the word is a sign: it belongs to what follows. -/
def EndsInSign (w : List Nat) : Prop := w.getLast? = some 43 ∨ w.getLast? = some 45

/-- Among the words of the text there are two of the given kind, neither of them nor any word between them preceded by a
sign. -/
def Twice (k : Mark) (s : List Nat) : Prop :=
  ∃ l1 x l2 y l3, words s = l1 ++ x :: (l2 ++ y :: l3) ∧ k.Is x ∧ k.Is y ∧ (∀ w ∈ l1, ¬ EndsInSign w) ∧ ∀ w ∈ l2, ¬ EndsInSign w

/-- The word contains two month names in small letters, each a whole run of letters. -/
def TwoMonths (x : List Nat) : Prop :=
  ∃ a m b n c, x = a ++ (m ++ (b ++ (n ++ c))) ∧ (∃ k, (m, k) ∈ monthWords ++ shortMonthWords) ∧
    (∃ k, (n, k) ∈ monthWords ++ shortMonthWords) ∧ (∀ l, a.getLast? = some l → ¬ Letter l) ∧ b ≠ [] ∧
    (∀ l, b.head? = some l → ¬ Letter l) ∧ (∀ l, b.getLast? = some l → ¬ Letter l) ∧ ∀ l, c.head? = some l → ¬ Letter l

end Spec
