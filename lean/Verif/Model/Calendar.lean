import Verif.Rust

/-!
# Model of the calendar routines of src/common.rs
-/

namespace Pg

/-- src/common.rs:53-67 `date2julian`. -/
def date2julian (p : Profile) (y m d : Int) : Res Int := do
  let (y, m) ←
    if m > 2 then do
      let y ← chk32 p (y + 4800)
      let m ← chk32 p (m + 1)
      pure (y, m)
    else do
      let y ← chk32 p (y + 4799)
      let m ← chk32 p (m + 13)
      pure (y, m)
  let century := tdiv y 100
  let t ← chk32 p (y * 365)
  let julian ← chk32 p (t - 32167)
  let t ← chk32 p (tdiv y 4 - century)
  let t ← chk32 p (t + tdiv century 4)
  let julian ← chk32 p (julian + t)
  let t ← chk32 p (7834 * m)
  let t ← chk32 p (tdiv t 256 + d)
  chk32 p (julian + t)

/-- src/common.rs:71-92 `julian2date` (`u32` arithmetic). -/
def julian2date (p : Profile) (jd : Int) : Res (Int × Int × Int) := do
  let julian ← chkU32 p (wrapU32 jd + 32044)
  let quad := julian / 146097
  let t ← chkU32 p (quad * 146097)
  let t ← chkU32 p (julian - t)
  let t ← chkU32 p (t * 4)
  let extra ← chkU32 p (t + 3)
  let t ← chkU32 p (quad * 3)
  let t ← chkU32 p (60 + t)
  let t ← chkU32 p (t + extra / 146097)
  let julian ← chkU32 p (julian + t)
  let quad := julian / 1461
  let t ← chkU32 p (quad * 1461)
  let julian ← chkU32 p (julian - t)
  let t ← chkU32 p (julian * 4)
  let y := wrap32 (t / 1461)
  let julian ←
    if y ≠ 0 then do
      let t ← chkU32 p (julian + 305)
      chkU32 p (t % 365 + 123)
    else do
      let t ← chkU32 p (julian + 306)
      chkU32 p (t % 366 + 123)
  let t ← chkU32 p (quad * 4)
  let y ← chk32 p (y + wrap32 t)
  let year ← chk32 p (y - 4800)
  let t ← chkU32 p (julian * 2141)
  let quad := t / 65536
  let t ← chkU32 p (7834 * quad)
  let day ← chkU32 p (julian - t / 256)
  let t ← chkU32 p (quad + 10)
  let month ← chkU32 p (t % 12 + 1)
  pure (year, wrap32 month, wrap32 day)

/-- src/common.rs:407-415 `julian_to_week_day`. -/
def julianToWeekDay (p : Profile) (date : Int) : Res Int := do
  let date ← chk32 p (date + 1)
  let date := tmod date 7
  if date < 0 then chk32 p (date + 7) else pure date

/-- src/common.rs:523-525 `year_is_leap`. -/
def yearIsLeap (y : Int) : Bool :=
  tmod y 4 = 0 && (tmod y 100 ≠ 0 || tmod y 400 = 0)

/-- src/common.rs:529-532 `DAY_TABLE`. -/
def dayTable : Bool → List Int
  | false => [31, 28, 31, 30, 31, 30, 31, 31, 30, 31, 30, 31, 0]
  | true => [31, 29, 31, 30, 31, 30, 31, 31, 30, 31, 30, 31, 0]

/-- src/common.rs:528-535 `days_of_month`. The index is `m as usize - 1`; in debug a
subtraction underflow, in both profiles an index outside the table, panics. A
negative `m` becomes a huge `usize`, `m = 0` underflows; both end in a panic. -/
def daysOfMonth (y m : Int) : Res Int :=
  if 1 ≤ m then
    match (dayTable (yearIsLeap y))[(m - 1).toNat]? with
    | some v => .ok v
    | none => .panic
  else .panic

/-- src/common.rs:559-571 `is_valid_julian`. -/
def isValidJulian (y m : Int) : Bool :=
  (y > -4713 || (y = -4713 && m ≥ 11)) && (y < 5874898 || (y = 5874898 && m < 6))

/-- src/common.rs:565 -/
notation "POSTGRES_EPOCH_JDATE" => (2451545 : Int)
/-- src/common.rs:614 -/
notation "MONTHS_PER_YEAR" => (12 : Int)
/-- src/common.rs:621 -/
notation "DAYS_PER_MONTH" => (30 : Int)
/-- src/common.rs:622 -/
notation "HOURS_PER_DAY" => (24 : Int)
/-- src/common.rs:629 -/
notation "SECS_PER_DAY" => (86400 : Int)
/-- src/common.rs:630 -/
notation "SECS_PER_HOUR" => (3600 : Int)
/-- src/common.rs:631 -/
notation "SECS_PER_MINUTE" => (60 : Int)
/-- src/common.rs:632 -/
notation "MINS_PER_HOUR" => (60 : Int)
/-- src/common.rs:634 -/
notation "USECS_PER_DAY" => (86400000000 : Int)
/-- src/common.rs:635 -/
notation "USECS_PER_HOUR" => (3600000000 : Int)
/-- src/common.rs:636 -/
notation "USECS_PER_MINUTE" => (60000000 : Int)
/-- src/common.rs:637 -/
notation "USECS_PER_SEC" => (1000000 : Int)

end Pg
