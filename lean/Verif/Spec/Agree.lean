import Verif.Spec.Special

/-!
# Specification: the words that label a number as part of a clock time
-/

namespace Spec

/-- The labels of hours, minutes and seconds; `m` can label a month or a minute. -/
def clockLabels : List (List Nat) := [b!"h", b!"m", b!"mm", b!"s"]

end Spec
