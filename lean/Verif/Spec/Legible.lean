/-!
# Legible text
-/

namespace Spec

/-- A printable ASCII character; a text of such bytes is valid UTF-8. -/
def Legible (b : Nat) : Prop := 32 ≤ b ∧ b ≤ 126

instance (b : Nat) : Decidable (Legible b) := inferInstanceAs (Decidable (_ ∧ _))

end Spec
