import Verif.Spec.Text

/-!
# Specification: clock times `hh:mm:ss[.f]` as input
-/

namespace Spec

/-- The text `hh:mm:ss` or `hh:mm:ss.f` with the given digits (58 is `:`, 46 is `.`). -/
def hmsText (hh mm ss : List Nat) (f : Option (List Nat)) : List Nat :=
  hh ++ [58] ++ mm ++ [58] ++ ss ++ (match f with | none => [] | some fs => [46] ++ fs)

/-- `k` microseconds is nearest to the fraction `0.f`: at most half a microsecond off. -/
def NearestMicros (fs : List Nat) (k : Int) : Prop :=
  2 * k * 10 ^ fs.length ≤ 2 * value fs * 1000000 + 10 ^ fs.length ∧
  2 * value fs * 1000000 ≤ 2 * k * 10 ^ fs.length + 10 ^ fs.length

/-- The fields name a time of day from 00:00:00 to 24:00:00; minutes go to 59, seconds to 60. -/
def ClockInput (h m s : Nat) (us : Int) : Prop :=
  h ≤ 24 ∧ m ≤ 59 ∧ s ≤ 60 ∧ (h = 24 → m = 0 ∧ s = 0 ∧ us = 0)

instance (h m s : Nat) (us : Int) : Decidable (ClockInput h m s us) := by
  unfold ClockInput; infer_instance

/-- Microseconds since midnight. -/
def clockValue (h m s : Nat) (us : Int) : Int :=
  ((h * 60 + m : Int) * 60 + s) * 1000000 + us

end Spec
