import Verif.Spec.Parts

/-!
# Specification: interval literals of the SQL standard, `-1-2 3 04:05:06`
-/

namespace Spec

/-- Years-months, `1-2`; days and clock time, `3 04:05:06`; or both. The days may be missing. -/
inductive SqlLiteral where
  | yearMonth (ys ms : List Nat)
  | dayTime (ds : Option (List Nat)) (T : ClockText)
  | both (ys ms : List Nat) (ds : Option (List Nat)) (T : ClockText)

namespace SqlLiteral

def monthsText (ys ms : List Nat) : List Nat := ys ++ 45 :: ms

def timeText : Option (List Nat) → ClockText → List Nat
  | none, T => T.bytes
  | some ds, T => ds ++ 32 :: T.bytes

/-- 45 is `-`, 32 is the space. -/
def text : SqlLiteral → List Nat
  | .yearMonth ys ms => monthsText ys ms
  | .dayTime ds T => timeText ds T
  | .both ys ms ds T => monthsText ys ms ++ 32 :: timeText ds T

def monthsOk (ys ms : List Nat) : Prop := DigitsOf 1 10 ys ∧ DigitsOf 1 10 ms ∧ value ys * 12 + value ms ≤ 2000000000

def timeOk (ds : Option (List Nat)) (T : ClockText) : Prop :=
  (∀ e ∈ ds, DigitsOf 1 10 e ∧ value e ≤ 2000000000) ∧ T.Ok ∧ T.colons = true ∧ T.h * 60 + T.m ≤ 2000000000 ∧ T.s ≤ 2000000000

/-- Digits, a clock time with colons, and at most two thousand million months, days, minutes and seconds. -/
def Ok : SqlLiteral → Prop
  | .yearMonth ys ms => monthsOk ys ms
  | .dayTime ds T => timeOk ds T
  | .both ys ms ds T => monthsOk ys ms ∧ timeOk ds T

/-- Less than twelve months beside the years, less than sixty minutes, at most sixty seconds. -/
def InRange : SqlLiteral → Prop
  | .yearMonth _ ms => value ms ≤ 11
  | .dayTime _ T => T.m ≤ 59 ∧ T.s ≤ 60
  | .both _ ms _ T => value ms ≤ 11 ∧ T.m ≤ 59 ∧ T.s ≤ 60

instance (L : SqlLiteral) : Decidable L.InRange := by unfold InRange; split <;> infer_instance

def daysOf : Option (List Nat) → Int
  | none => 0
  | some ds => value ds

/-- The literal is this many months, days and microseconds. -/
def Is : SqlLiteral → Int × Int × Int → Prop
  | .yearMonth ys ms, y => y = ((value ys * 12 + value ms : Int), 0, 0)
  | .dayTime ds T, y => ∃ us, NearestMicros T.frac us ∧ y = (0, daysOf ds, clockValue T.h T.m T.s us)
  | .both ys ms ds T, y => ∃ us, NearestMicros T.frac us ∧ y = ((value ys * 12 + value ms : Int), daysOf ds, clockValue T.h T.m T.s us)

/-- The same with the first number negated only. -/
def IsFirst : SqlLiteral → Int × Int × Int → Prop
  | .yearMonth ys ms, y => y = (-(value ys * 12 + value ms : Int), 0, 0)
  | .dayTime none T, y => ∃ us, NearestMicros T.frac us ∧ y = (0, 0, -clockValue T.h T.m T.s us)
  | .dayTime (some ds) T, y => ∃ us, NearestMicros T.frac us ∧ y = (0, -(value ds : Int), clockValue T.h T.m T.s us)
  | .both ys ms ds T, y => ∃ us, NearestMicros T.frac us ∧ y = (-(value ys * 12 + value ms : Int), daysOf ds, clockValue T.h T.m T.s us)

end SqlLiteral
end Spec
