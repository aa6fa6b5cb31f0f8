import Verif.Spec.Twice

/-!
# Specification: words that say nothing new
-/

namespace Spec

/-- `ad`, `at` or `on`, in small or capital letters. -/
def Filler (w : List Nat) : Prop := SameButCase w b!"ad" ∨ SameButCase w b!"at" ∨ SameButCase w b!"on"

/-- A filler or the name of a weekday. -/
def Ornament (w : List Nat) : Prop := Filler w ∨ Mark.weekday.Is w

/-- The text ends in a byte after which a blank separates: not in a blank, a sign or a decimal point. -/
def EndsPlainly (s : List Nat) : Prop := ∃ b, s.getLast? = some b ∧ White b = false ∧ b ≠ 43 ∧ b ≠ 45 ∧ b ≠ 46

end Spec
