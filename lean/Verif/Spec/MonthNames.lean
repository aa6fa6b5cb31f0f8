import Verif.Spec.Forms
import Verif.Spec.Keywords
import Verif.Spec.Words

/-!
# Specification: days written with a month name

32 is the space, 44 the comma; separators are `-`, `/` and `.`.
-/

namespace Spec
open Pg (DateOrder)

/-- The short month names, except `feb`, which the code does not know (see property C41). -/
def shortMonthWords : List (List Nat × Int) :=
  [(b!"jan", 1), (b!"mar", 3), (b!"apr", 4), (b!"jun", 6), (b!"jul", 7), (b!"aug", 8), (b!"sep", 9),
   (b!"sept", 9), (b!"oct", 10), (b!"nov", 11), (b!"dec", 12)]

/-- `w` is a long or short name of month `m`, in any mixture of small and capital letters. -/
def MonthWord (m : Int) (w : List Nat) : Prop := ∃ s, (s, m) ∈ monthWords ++ shortMonthWords ∧ SameButCase w s

/-- What may stand between two numbers: a space, a comma, or a comma and a space. -/
def Between (g : List Nat) : Prop := g = [32] ∨ g = [44] ∨ g = [44, 32]

/-- What may stand between a word and a number: the same, or nothing. -/
def Beside (g : List Nat) : Prop := g = [] ∨ Between g

/-- A month name `w` and two numbers: as one group with separators, or as separate words. -/
inductive MonthText where
  /-- `08-Jan-1999` -/
  | joined (x : Nat) (a w b : List Nat)
  /-- `Jan-08-1999` -/
  | joinedFirst (x : Nat) (w a b : List Nat)
  /-- `January 8, 1999` -/
  | first (w g a h b : List Nat)
  /-- `8 January 1999` -/
  | middle (a g w h b : List Nat)

def MonthText.bytes : MonthText → List Nat
  | .joined x a w b => a ++ x :: (w ++ x :: b)
  | .joinedFirst x w a b => w ++ x :: (a ++ x :: b)
  | .first w g a h b => w ++ (g ++ (a ++ (h ++ b)))
  | .middle a g w h b => a ++ (g ++ (w ++ (h ++ b)))

def MonthText.isJoined : MonthText → Bool
  | .joined .. | .joinedFirst .. => true
  | .first .. | .middle .. => false

/-- The month name is that of month `m`; the numbers have up to ten digits in one group, up to five otherwise. -/
def MonthText.Ok (m : Int) : MonthText → Prop
  | .joined x a w b | .joinedFirst x w a b =>
    (x = 45 ∨ x = 47 ∨ x = 46) ∧ MonthWord m w ∧ DigitsOf 1 10 a ∧ DigitsOf 1 10 b
  | .first w g a h b => MonthWord m w ∧ Beside g ∧ Between h ∧ DigitsOf 1 5 a ∧ DigitsOf 1 5 b
  | .middle a g w h b => MonthWord m w ∧ Beside g ∧ Beside h ∧ DigitsOf 1 5 a ∧ DigitsOf 1 5 b

/-- As `MonthText.Ok` for separate words, but one of the numbers has six or more digits; up to sixty characters. -/
def MonthText.Long (m : Int) : MonthText → Prop
  | .joined .. | .joinedFirst .. => False
  | .first w g a h b => MonthWord m w ∧ Beside g ∧ Between h ∧ Digits a ∧ Digits b ∧ a ≠ [] ∧ b ≠ [] ∧
    (6 ≤ a.length ∨ 6 ≤ b.length) ∧ (MonthText.first w g a h b).bytes.length ≤ 60
  | .middle a g w h b => MonthWord m w ∧ Beside g ∧ Beside h ∧ Digits a ∧ Digits b ∧ a ≠ [] ∧ b ≠ [] ∧
    (6 ≤ a.length ∨ 6 ≤ b.length) ∧ (MonthText.middle a g w h b).bytes.length ≤ 60

/-- The two numbers. -/
def MonthText.nums : MonthText → List Nat × List Nat
  | .joined _ a _ b | .joinedFirst _ _ a b | .first _ _ a _ b | .middle a _ _ _ b => (a, b)

/-- Is the first number the year? The rule for month names: a number of three or more digits is the year; of two
shorter numbers the first is the year in the order year-month-day, and the day otherwise. -/
def yearFirst (order : DateOrder) (a b : List Nat) : Prop := 3 ≤ a.length ∨ (order = .ymd ∧ b.length ≤ 2)

instance (order : DateOrder) (a b : List Nat) : Decidable (yearFirst order a b) := by unfold yearFirst; infer_instance

/-- Is the first number taken as the year? By the rule in one group; with separate words the day always follows a
leading month name, and a number before the month name is the year in the order year-month-day. -/
def MonthText.readYearFirst (order : DateOrder) : MonthText → Prop
  | .joined _ a _ b | .joinedFirst _ _ a b => yearFirst order a b
  | .first .. => False
  | .middle a _ _ _ _ => 3 ≤ a.length ∨ order = .ymd

instance (order : DateOrder) (D : MonthText) : Decidable (D.readYearFirst order) := by
  cases D <;> unfold MonthText.readYearFirst <;> infer_instance

/-- The day, if the year comes first as given. -/
def MonthText.day (m : Int) (bc : Bool) (yf : Bool) (D : MonthText) : Option YMD :=
  if yf then namedDay D.nums.1 m (value D.nums.2) bc else namedDay D.nums.2 m (value D.nums.1) bc

end Spec
