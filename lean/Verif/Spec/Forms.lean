import Verif.Spec.DateInput
import Verif.Spec.ClockInput
import Verif.Spec.Meridiem

/-!
# Specification: the written forms of days and of clock times

48-57 are the digits, 58 is `:`, 46 is `.`.
-/

namespace Spec
open Pg (DateOrder)

/-- A written day: three numbers with a separator, or one run of digits `yyyymmdd` (two or more digits of year). -/
inductive DayText where
  | numeric (x : Nat) (a b c : List Nat)
  | compact (ys mm dd : List Nat)

def DayText.bytes : DayText → List Nat
  | .numeric x a b c => numericDate x a b c
  | .compact ys mm dd => ys ++ mm ++ dd

/-- `lo` to `hi` digits. -/
def DigitsOf (lo hi : Nat) (ds : List Nat) : Prop := Digits ds ∧ lo ≤ ds.length ∧ ds.length ≤ hi

instance (lo hi : Nat) (ds : List Nat) : Decidable (DigitsOf lo hi ds) := by
  unfold DigitsOf Digits; infer_instance

/-- The parts are digits of the lengths allowed: the separator is `-`, `/` or `.`; numbers have up to ten digits, the
one in the middle not three; in a compact day the month and the day have two digits each. -/
def DayText.Ok : DayText → Prop
  | .numeric x a b c => (x = 45 ∨ x = 47 ∨ x = 46) ∧ DigitsOf 1 10 a ∧ DigitsOf 1 10 b ∧ DigitsOf 1 10 c ∧ b.length ≠ 3
  | .compact ys mm dd => DigitsOf 2 10 ys ∧ DigitsOf 2 2 mm ∧ DigitsOf 2 2 dd

/-- The calendar day, if there is one. -/
def DayText.day (order : DateOrder) (bc : Bool) : DayText → Option YMD
  | .numeric _ a b c => inputDay order a b c bc
  | .compact ys mm dd => namedDay ys (value mm) (value dd) bc

/-- A dot and digits, or nothing. -/
def dotText : Option (List Nat) → List Nat
  | none => []
  | some fs => 46 :: fs

/-- A written clock time: `hh:mm:ss[.f]`, `hh:mm`, `mm:ss.f`, `hhmmss[.f]`, `hhmm[.f]`. -/
inductive ClockText where
  | long (hh mm ss : List Nat) (f : Option (List Nat))
  | short (hh mm : List Nat)
  | minSec (mm ss fs : List Nat)
  | six (hh mm ss : List Nat) (f : Option (List Nat))
  | four (hh mm : List Nat) (f : Option (List Nat))

def ClockText.bytes : ClockText → List Nat
  | .long hh mm ss f => hmsText hh mm ss f
  | .short hh mm => hh ++ 58 :: mm
  | .minSec mm ss fs => mm ++ 58 :: (ss ++ 46 :: fs)
  | .six hh mm ss f => hh ++ (mm ++ (ss ++ dotText f))
  | .four hh mm f => hh ++ (mm ++ dotText f)

/-- The clock time is written with colons. -/
def ClockText.colons : ClockText → Bool
  | .long .. | .short .. | .minSec .. => true
  | .six .. | .four .. => false

def ClockText.h : ClockText → Nat
  | .long hh .. | .short hh _ | .six hh .. | .four hh .. => value hh
  | .minSec .. => 0

def ClockText.m : ClockText → Nat
  | .long _ mm _ _ | .short _ mm | .minSec mm _ _ | .six _ mm _ _ | .four _ mm _ => value mm

def ClockText.s : ClockText → Nat
  | .long _ _ ss _ | .minSec _ ss _ | .six _ _ ss _ => value ss
  | .short .. | .four .. => 0

/-- The digits of the fraction of a second. -/
def ClockText.frac : ClockText → List Nat
  | .long _ _ _ f | .six _ _ _ f | .four _ _ f => f.getD []
  | .short .. => []
  | .minSec _ _ fs => fs

/-- The parts are digits of the lengths allowed: up to ten, fractions up to seven; two each without colons. -/
def ClockText.Ok : ClockText → Prop
  | .long hh mm ss f => DigitsOf 1 10 hh ∧ DigitsOf 1 10 mm ∧ DigitsOf 1 10 ss ∧ DigitsOf 0 7 (f.getD [])
  | .short hh mm => DigitsOf 1 10 hh ∧ DigitsOf 1 10 mm
  | .minSec mm ss fs => DigitsOf 1 10 mm ∧ DigitsOf 1 10 ss ∧ DigitsOf 0 7 fs
  | .six hh mm ss f => DigitsOf 2 2 hh ∧ DigitsOf 2 2 mm ∧ DigitsOf 2 2 ss ∧ ∀ fs, f = some fs → DigitsOf 1 7 fs
  | .four hh mm f => DigitsOf 2 2 hh ∧ DigitsOf 2 2 mm ∧ ∀ fs, f = some fs → DigitsOf 1 7 fs

/-- The hour of the day, after `AM` or `PM` if there is one. -/
def hourOf (mer : Option Bool) (h : Nat) : Option Nat :=
  match mer with
  | none => some h
  | some pm => hour24 pm h

/-- The text of `AM` or `PM`, if there is one: a word in any letter case, perhaps after a space. -/
def MeridiemText : Option Bool → List Nat → Prop
  | none, t => t = []
  | some pm, t => ∃ w, MeridiemWord pm w ∧ (t = w ∨ t = 32 :: w)

end Spec
