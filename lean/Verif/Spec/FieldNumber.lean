/-! # Numbers of field types -/

namespace Spec

/-- `TokenField` has 38 variants, numbered from 0 (src/token.rs:188-227); any other number is no value of the type. -/
def IsFieldNumber (v : Int) : Prop := 0 ≤ v ∧ v < 38

instance (v : Int) : Decidable (IsFieldNumber v) := inferInstanceAs (Decidable (_ ∧ _))

end Spec
