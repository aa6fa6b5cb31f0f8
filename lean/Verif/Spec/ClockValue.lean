import Verif.Spec.Replace

/-!
# Specification: a text with a clock time
-/

namespace Spec

/-- The text `s` has the clock time `hh:mm:ss`, with the fraction `f`, at the beginning of a word or after a `T`; no word before it
ends in a sign; `z` follows. -/
def HasClock (hh mm ss : List Nat) (f : Option (List Nat)) (z s : List Nat) : Prop :=
  ThreeNumbers hh mm ss ∧ Digits (f.getD []) ∧ (∀ b, z.head? = some b → ¬ Digit b ∧ b ≠ 58 ∧ b ≠ 46) ∧
  ∃ a r, s = a ++ (r ++ (hmsText hh mm ss f ++ z)) ∧ BeforeClock r ∧ (a = [] ∨ ∃ x b, a = x ++ [b] ∧ White b) ∧ ∀ w ∈ words a, ¬ EndsInSign w

/-- One of the words of the text `s` is `am` or `pm`, and no word before it ends in a sign; or `am` or `pm` stands at the beginning of
`z`, which is what follows the clock time. -/
def HasHalf (pm : Bool) (z s : List Nat) : Prop :=
  (∃ l1 w l2, words s = l1 ++ w :: l2 ∧ MeridiemWord pm w ∧ ∀ x ∈ l1, ¬ EndsInSign x) ∨
  ∃ w c, z = w ++ c ∧ MeridiemWord pm w ∧ ∀ b, c.head? = some b → White b

/-- The hour of the day for the hour `h` of a clock time in the text `s`, which goes on with `z`: that of a clock of twelve hours if the
text has the word `am` or `pm`, `h` itself if it does not say `am` or `pm` at all. -/
structure HourSaid (z s : List Nat) (h H : Nat) : Prop where
  half : ∀ pm, HasHalf pm z s → hour24 pm h = some H
  whole : ¬ Says [b!"am", b!"pm"] s → H = h
  either : H = h ∨ (Says [b!"pm"] s ∧ hour24 true h = some H) ∨ (Says [b!"am"] s ∧ hour24 false h = some H)

end Spec
