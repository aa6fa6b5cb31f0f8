import Verif.Spec.Text

/-!
# Text of intervals

An interval is `m` months, `d` days and `t` microseconds. Its fields are years and months of `m`,
the days, and hours, minutes and seconds of `t`, each truncated towards zero, so that the fields of
`m` have the sign of `m` and those of `t` the sign of `t`. ASCII codes: 32 space, 43 `+`, 45 `-`,
46 `.`, 48 `0`, 58 `:`, 64 `@`, 68 `D`, 72 `H`, 77 `M`, 80 `P`, 83 `S`, 84 `T`, 89 `Y`, 115 `s`.
-/

namespace Spec

/-- Years. -/
def ivYear (m : Int) : Int := Int.tdiv m 12
/-- Months below one year. -/
def ivMon (m : Int) : Int := Int.tmod m 12
/-- Hours. -/
def ivHour (t : Int) : Int := Int.tdiv t 3600000000
/-- Minutes below one hour. -/
def ivMin (t : Int) : Int := Int.tdiv (Int.tmod t 3600000000) 60000000
/-- Whole seconds below one minute, without sign. -/
def ivSec (t : Int) : Nat := t.natAbs % 60000000 / 1000000
/-- Microseconds below one second, without sign. -/
def ivMicro (t : Int) : Nat := t.natAbs % 1000000

/-- `-` for negative numbers. -/
def minus (neg : Bool) : List Nat := if neg then [45] else []
/-- `-` or `+`. -/
def signText (neg : Bool) : List Nat := if neg then [45] else [43]

/-- `:mm:ss.ffffff` of `t` without sign. -/
def minSecText (t : Int) : List Nat :=
  [58] ++ (padText 2 (ivMin t).natAbs ++ ([58] ++ secText true (ivSec t) (ivMicro t)))

/-! ## ISO 8601 -/

/-- A nonzero number followed by the letter of its unit. -/
def isoField (v : Int) (u : Nat) : List Nat := if v = 0 then [] else intText v ++ [u]

/-- The seconds. -/
def isoSecText (t : Int) : List Nat :=
  if t.natAbs % 60000000 = 0 then []
  else minus (t < 0) ++ (secText false (ivSec t) (ivMicro t) ++ [83])

/-- ISO 8601 style: `P1Y2M3DT4H5M6.7S`. -/
def isoIntervalText (m d t : Int) : List Nat :=
  if m = 0 ∧ d = 0 ∧ t = 0 then [80, 84, 48, 83]
  else [80] ++ (isoField (ivYear m) 89 ++ (isoField (ivMon m) 77 ++ (isoField d 68 ++
    ((if t = 0 then [] else [84]) ++ (isoField (ivHour t) 72 ++ (isoField (ivMin t) 77 ++
      isoSecText t))))))

/-! ## SQL standard -/

/-- Some field is negative and some positive, or there are both months and days or time. -/
def sqlMixedParts (m d t : Int) : Bool :=
  (decide (m < 0 ∨ d < 0 ∨ t < 0) && decide (m > 0 ∨ d > 0 ∨ t > 0)) ||
    decide (m ≠ 0 ∧ (d ≠ 0 ∨ t ≠ 0))

/-- `h:mm:ss.ffffff` without sign. -/
def sqlClockText (t : Int) : List Nat := natText (ivHour t).natAbs ++ minSecText t

/-- SQL standard style: `1-2` or `3 4:05:06` with one sign in front, or `+1-2 -3 +4:05:06`. -/
def sqlIntervalText (m d t : Int) : List Nat :=
  if m = 0 ∧ d = 0 ∧ t = 0 then [48]
  else if sqlMixedParts m d t then
    signText (m < 0) ++ (natText (ivYear m).natAbs ++ ([45] ++ (natText (ivMon m).natAbs ++
      ([32] ++ (signText (d < 0) ++ (natText d.natAbs ++
        ([32] ++ (signText (t < 0) ++ sqlClockText t))))))))
  else minus (m < 0 ∨ d < 0 ∨ t < 0) ++
    if m ≠ 0 then natText (ivYear m).natAbs ++ ([45] ++ natText (ivMon m).natAbs)
    else if d ≠ 0 then natText d.natAbs ++ ([32] ++ sqlClockText t)
    else sqlClockText t

/-! ## Postgres -/

/-- Sign and number of digits in front of a word; a positive number after a negative one gets a
plus sign. `prev` is the sign of the field printed before, if any. -/
def pgLead (prev : Option Bool) (neg : Bool) : List Nat :=
  (if prev = none then [] else [32]) ++
    if neg then [45] else if prev = some true then [43] else []

/-- `n year(s)`. -/
def pgWord (prev : Option Bool) (v : Int) (unit : List Nat) : List Nat :=
  if v = 0 then []
  else pgLead prev (v < 0) ++ (natText v.natAbs ++ ([32] ++ (unit ++ if v = 1 then [] else [115])))

/-- The sign of the last printed field. -/
def pgNext (prev : Option Bool) (v : Int) : Option Bool := if v = 0 then prev else some (v < 0)

/-- Postgres style: `1 year 2 mons -3 days +04:05:06`. -/
def pgIntervalText (m d t : Int) : List Nat :=
  let s1 := pgNext none (ivYear m)
  let s2 := pgNext s1 (ivMon m)
  let s3 := pgNext s2 d
  pgWord none (ivYear m) [121, 101, 97, 114] ++ (pgWord s1 (ivMon m) [109, 111, 110] ++
    (pgWord s2 d [100, 97, 121] ++
      if s3 = none ∨ t ≠ 0 then
        pgLead s3 (t < 0) ++ (padText 2 (ivHour t).natAbs ++ minSecText t)
      else []))

/-! ## Verbose -/

/-- The first nonzero field is negative. -/
def leadNeg (m d t : Int) : Bool := if m ≠ 0 then m < 0 else if d ≠ 0 then d < 0 else t < 0

/-- ` n year(s)`; the sign is relative to the first field. -/
def verboseWord (lead : Bool) (v : Int) (unit : List Nat) : List Nat :=
  if v = 0 then []
  else [32] ++ (minus (decide (v < 0) != lead) ++ (natText v.natAbs ++ ([32] ++ (unit ++
    if v = 1 then [] else [115]))))

/-- The seconds. -/
def verboseSecText (lead : Bool) (t : Int) : List Nat :=
  if t.natAbs % 60000000 = 0 then []
  else [32] ++ (minus (decide (t < 0) != lead) ++ (secText false (ivSec t) (ivMicro t) ++
    ([32, 115, 101, 99] ++ if ivSec t = 1 ∧ ivMicro t = 0 then [] else [115])))

/-- Verbose style: `@ 1 year 2 mons -3 days 4 hours 5 mins 6 secs`, with ` ago` after an interval
whose first field is negative. -/
def verboseIntervalText (m d t : Int) : List Nat :=
  let l := leadNeg m d t
  [64] ++ (verboseWord l (ivYear m) [121, 101, 97, 114] ++ (verboseWord l (ivMon m) [109, 111, 110] ++
    (verboseWord l d [100, 97, 121] ++ (verboseWord l (ivHour t) [104, 111, 117, 114] ++
      (verboseWord l (ivMin t) [109, 105, 110] ++ (verboseSecText l t ++
        ((if m = 0 ∧ d = 0 ∧ t = 0 then [32, 48] else []) ++
          if l then [32, 97, 103, 111] else [])))))))

end Spec
