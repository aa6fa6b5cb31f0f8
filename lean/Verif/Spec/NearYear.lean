import Verif.Spec.Special

/-!
# Specification: texts in which no day of the year is paired with a far year

Written without reference to the model of the parser.
-/

namespace Spec

/-- A decimal digit. -/
def Figure (b : Nat) : Prop := 48 ≤ b ∧ b ≤ 57

/-- `w` is a run of digits of the text that is not part of a longer one. -/
def DigitRun (w s : List Nat) : Prop :=
  ∃ a c, s = a ++ (w ++ c) ∧ w ≠ [] ∧ (∀ b ∈ w, Figure b) ∧ (∀ l, a.getLast? = some l → ¬ Figure l) ∧
    ∀ l, c.head? = some l → ¬ Figure l

/-- No run of digits is longer than `n`. -/
def ShortNumbers (n : Nat) (s : List Nat) : Prop := ∀ w, DigitRun w s → w.length ≤ n

/-- The text cannot name a day of the year: no number has three digits, and there is no decimal point. -/
def NoYearDay (s : List Nat) : Prop := 46 ∉ s ∧ ∀ w, DigitRun w s → w.length ≠ 3

/-- The bytes that join the parts of a date: `+ - / _ . :`. -/
def joiners : List Nat := b!"+-/_.:"

/-- No number of more than six digits is joined to what follows. -/
def NoFarYear (s : List Nat) : Prop := ∀ a w j c, s = a ++ (w ++ j :: c) → (∀ b ∈ w, Figure b) → j ∈ joiners → w.length ≤ 6

/-- The text does not pair a day of the year with a year that is far from now, or before Christ. -/
def NearYearDay (s : List Nat) : Prop :=
  NoYearDay s ∨ ¬ Says [b!"bc"] s ∧ NoFarYear s ∧ (Says [b!"y"] s → ShortNumbers 6 s)

end Spec
