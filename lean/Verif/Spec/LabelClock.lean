import Verif.Spec.Labels
import Verif.Spec.Forms

/-!
# Specification: clock times written with labels

`h10 mm20 s30.5`, `s30h10`; after an hour, and after a day, also `m` for minutes.
-/

namespace Spec

inductive ClockLabel where
  | hour | minute | second
  deriving DecidableEq

/-- The word for a label. -/
def ClockLabel.word : ClockLabel → List Nat
  | .hour => b!"h"
  | .minute => b!"mm"
  | .second => b!"s"

/-- What stands before a label, the label, something between, and a number, for seconds perhaps with a fraction. -/
structure ClockPart where
  lead : List Nat
  label : ClockLabel
  word : List Nat
  gap : List Nat
  digits : List Nat
  frac : Option (List Nat)

def ClockPart.bytes (P : ClockPart) : List Nat := P.lead ++ (P.word ++ (P.gap ++ (P.digits ++ dotText P.frac)))

/-- The word is the label in either case; if `m` is set then minutes may be called `m`. The number has up to ten digits,
the fraction up to seven. -/
def ClockPart.Ok (m : Bool) (P : ClockPart) : Prop :=
  (SameButCase P.word P.label.word ∨ (m = true ∧ P.label = .minute ∧ SameButCase P.word b!"m")) ∧ Beside P.gap ∧
    DigitsOf 1 10 P.digits ∧ ∀ fs, P.frac = some fs → P.label = .second ∧ DigitsOf 1 7 fs

/-- A clock time with labels. -/
def labelClock (parts : List ClockPart) : List Nat := (parts.map ClockPart.bytes).flatten

/-- Every part is correct and no label occurs twice; `day` tells whether there is a day, `hour` whether there has been an
hour. -/
def PartsOk (day : Bool) : Bool → List ClockPart → Prop
  | _, [] => True
  | hour, P :: r => P.Ok (day && hour) ∧ (∀ Q ∈ r, Beside Q.lead ∧ Q.label ≠ P.label) ∧
      PartsOk day (hour || decide (P.label = .hour)) r

/-- Nothing or a space stands before the first label. -/
def FirstOk (parts : List ClockPart) : Prop := ∀ P ∈ parts.head?, P.lead = [] ∨ P.lead = [32]

/-- The number with the label `l`, 0 if there is none. -/
def clockNumber (l : ClockLabel) (parts : List ClockPart) : Nat :=
  match parts.find? (fun P => P.label = l) with
  | some P => value P.digits
  | none => 0

/-- The digits of the fraction of a second. -/
def clockFrac (parts : List ClockPart) : List Nat :=
  match parts.find? (fun P => P.label = .second) with
  | some P => P.frac.getD []
  | none => []

end Spec
