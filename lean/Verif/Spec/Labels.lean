import Verif.Spec.MonthNames

/-!
# Specification: days written with labels

`y2024 m5 d17`, `d17m5y2024`; and Julian day numbers, `J2460448`.
-/

namespace Spec

inductive Label where
  | year | month | day
  deriving DecidableEq

/-- The word for a label. -/
def Label.word : Label → List Nat
  | .year => b!"y"
  | .month => b!"m"
  | .day => b!"d"

/-- A label, something between, and a number. -/
structure LabelPart where
  label : Label
  word : List Nat
  gap : List Nat
  digits : List Nat

def LabelPart.bytes (P : LabelPart) : List Nat := P.word ++ (P.gap ++ P.digits)

/-- The word is the label in either case, the number has up to ten digits. -/
def LabelPart.Ok (P : LabelPart) : Prop := SameButCase P.word P.label.word ∧ Beside P.gap ∧ DigitsOf 1 10 P.digits

/-- Three parts, and what is between them. -/
structure LabelText where
  a : LabelPart
  g : List Nat
  b : LabelPart
  h : List Nat
  c : LabelPart

def LabelText.bytes (D : LabelText) : List Nat := D.a.bytes ++ (D.g ++ (D.b.bytes ++ (D.h ++ D.c.bytes)))

/-- Each label occurs once. -/
def LabelText.Ok (D : LabelText) : Prop :=
  D.a.Ok ∧ D.b.Ok ∧ D.c.Ok ∧ Beside D.g ∧ Beside D.h ∧
    [D.a.label, D.b.label, D.c.label].Perm [.year, .month, .day]

/-- The number with the label `l`. -/
def LabelText.number (D : LabelText) (l : Label) : Nat :=
  if D.a.label = l then value D.a.digits else if D.b.label = l then value D.b.digits else value D.c.digits

/-- The day: the year is meant as written, or counted before the common era; there is no year 0. -/
def LabelText.day (D : LabelText) (bc : Bool) : Option YMD :=
  let y : Int := D.number .year
  let c : YMD := ⟨if bc then 1 - y else y, D.number .month, D.number .day⟩
  if y ≠ 0 ∧ c.Real then some c else none

/-- The words for a Julian day number. -/
def julianWords : List (List Nat) := [b!"j", b!"jd", b!"julian"]

/-- A word for a Julian day number, in either case, something between, and the number. -/
structure JulianText where
  word : List Nat
  gap : List Nat
  digits : List Nat

def JulianText.bytes (J : JulianText) : List Nat := J.word ++ (J.gap ++ J.digits)

def JulianText.Ok (J : JulianText) : Prop :=
  (∃ w ∈ julianWords, SameButCase J.word w) ∧ Beside J.gap ∧ DigitsOf 1 10 J.digits

end Spec
