/-!
# Decimal text

What a printed number should look like, stated on lists of ASCII codes.
-/

namespace Spec

/-- All characters are decimal digits. -/
def Digits (ds : List Nat) : Prop := ∀ d ∈ ds, 48 ≤ d ∧ d ≤ 57

/-- The number a digit string denotes. -/
def value (ds : List Nat) : Nat := ds.foldl (fun a d => 10 * a + (d - 48)) 0

/-- `t` is the canonical decimal text of `v`: optional minus sign, then at least one digit, no
leading zero. -/
def IsDecimal (v : Int) (t : List Nat) : Prop :=
  ∃ ds, t = (if v < 0 then [45] else []) ++ ds ∧ ds ≠ [] ∧ Digits ds ∧ value ds = v.natAbs ∧
    (ds.head? = some 48 → ds = [48])

/-- `t` is the decimal text of `v ≥ 0` with at least `w` digits: exactly `w` digits with leading
zeros if `v < 10 ^ w`, the canonical text otherwise. -/
def IsPadded (w : Nat) (v : Int) (t : List Nat) : Prop :=
  Digits t ∧ value t = v.natAbs ∧ (v < 10 ^ w → t.length = w) ∧ (10 ^ w ≤ v → IsDecimal v t)

/-- Canonical text of a natural number. -/
def natText (n : Nat) : List Nat :=
  if n < 10 then [48 + n] else natText (n / 10) ++ [48 + n % 10]
  decreasing_by omega

/-- Canonical text of an integer. -/
def intText (v : Int) : List Nat := if v < 0 then 45 :: natText v.natAbs else natText v.natAbs

/-- Text with at least `w` digits. -/
def padText (w n : Nat) : List Nat := List.replicate (w - (natText n).length) 48 ++ natText n

/-- Text without the zeros at its end. -/
def stripZeros (t : List Nat) : List Nat := (t.reverse.dropWhile (· == 48)).reverse

/-- Fraction of a second: nothing for 0, otherwise a dot and the six digits of the microseconds
without the zeros at the end. -/
def fracText (us : Nat) : List Nat := if us = 0 then [] else 46 :: stripZeros (padText 6 us)

/-- Seconds with fraction; `fill` asks for at least two digits before the dot. -/
def secText (fill : Bool) (sec us : Nat) : List Nat :=
  (if fill then padText 2 sec else natText sec) ++ fracText us

end Spec
