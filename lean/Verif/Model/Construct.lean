import Verif.Model.Types
import Verif.Model.F64

/-!
# Constructors from float seconds, and interval scaling
-/

namespace Pg

/-- src/time.rs:68, src/timestamp.rs:125, src/interval.rs:135:
`(s * USECS_PER_SEC as f64).round() as i64`. -/
def secMicros (s : F64) : Int := ((s.mul (F64.ofInt USECS_PER_SEC)).round).toI64

/-- src/time.rs:55-61 and src/timestamp.rs:111-117: the clock fields are rejected. `s < 0.0` and
the other comparisons are false for NaN; the NaN test exists only in timestamp.rs. -/
def badClock (h m : Int) (s : F64) : Bool :=
  decide (h < 0) || decide (m < 0) || decide (m > MINS_PER_HOUR - 1) || s.lt (.fin 0) ||
    (F64.ofInt SECS_PER_MINUTE).lt s || decide (h > HOURS_PER_DAY) ||
    (decide (h = HOURS_PER_DAY) && (decide (m > 0) || (F64.fin 0).lt s))

/-- src/time.rs:67-68, src/timestamp.rs:124-125: microseconds since midnight. -/
def clockMicros (p : Profile) (h m : Int) (s : F64) : Res Int := do
  let a ← chk32 p (h * MINS_PER_HOUR)
  let a ← chk32 p (a + m)
  let a ← chk32 p (a * SECS_PER_MINUTE)
  let a ← chk64 p (a * USECS_PER_SEC)
  chk64 p (a + secMicros s)

/-- src/time.rs:52-70 `Time::try_from_hms`. -/
def Time.tryFromHms (p : Profile) (h m : Int) (s : F64) : Res Time :=
  if badClock h m s then .err .overflow
  else do
    let time ← clockMicros p h m s
    pure ⟨time⟩

/-- src/timestamp.rs:127-145: combination of day and time of day with the range checks. -/
def Timestamp.ofDayTime (date time : Int) : Res Timestamp :=
  match (checked64 (date * USECS_PER_DAY)).bind (fun n => checked64 (n + time)) with
  | none => .err .overflow
  | some result =>
    if (result < 0 ∧ date > 0) ∨ (result > 0 ∧ date < -1) then .err .overflow
    else if isValidTimestamp result then .ok ⟨result⟩ else .err .overflow

/-- src/timestamp.rs:83-147 `Timestamp::try_from_ymd_hms`. -/
def Timestamp.tryFromYmdHms (p : Profile) (y mo d h mi : Int) (s : F64) : Res Timestamp := do
  let tm : PgTime := { PgTime.new with year := y, mon := mo, mday := d }
  let tm ← tm.validateDate p DTK_DATE_M false false false
  if ¬ isValidJulian tm.year tm.mon then .err .overflow
  else do
    let j ← date2julian p tm.year tm.mon tm.mday
    let date ← chk32 p (j - POSTGRES_EPOCH_JDATE)
    if s.isNan || badClock h mi s then .err .overflow
    else do
      let time ← clockMicros p h mi s
      Timestamp.ofDayTime date time

namespace Interval

/-- src/interval.rs:118-142 `Interval::try_from_ymwd_hms`. -/
def tryFromYmwdHms (y mo w d h mi : Int) (s : F64) : Res Interval :=
  if s.isInf || s.isNan then .err .overflow
  else
    let months := wrap32 (wrap32 (y * MONTHS_PER_YEAR) + mo)
    let days := wrap32 (wrap32 (w * 7) + d)
    let time := wrap64 (wrap64 (wrap64 (h * USECS_PER_HOUR) + wrap64 (mi * USECS_PER_MINUTE)) + secMicros s)
    .ok ⟨months, days, time⟩

/-- src/common.rs:585-591 `timestamp_round`. -/
def timestampRound (t : F64) : F64 := ((t.mul (.fin 1000000)).round).div (.fin 1000000)

/-- src/interval.rs:335-338 and 378-381: whole days inside the remaining seconds move to the day
field. -/
def carryDays (p : Profile) (day : Int) (sec : F64) : Res (Int × F64) :=
  if sec.abs.ge (F64.ofInt SECS_PER_DAY) then do
    let k := (sec.div (F64.ofInt SECS_PER_DAY)).toI32
    let day ← chk32 p (day + k)
    let w ← chk32 p (k * SECS_PER_DAY)
    pure (day, sec.sub (F64.ofInt w))
  else .ok (day, sec)

/-- src/interval.rs:293-298 and 301-306: rejected products. -/
def outOfI32 (x : F64) : Bool := x.isNan || (F64.ofInt i32Max).lt x || x.lt (F64.ofInt i32Min)

/-- src/interval.rs:324-341 and 370-384: cascade of the fractional months and days. `m` and `d` are
the scaled months and days, `rm` and `rd` their integer parts. Result: days and seconds. -/
def cascade (p : Profile) (m d : F64) (rm rd : Int) : Res (Int × F64) := do
  let mrd := timestampRound ((m.sub (F64.ofInt rm)).mul (F64.ofInt DAYS_PER_MONTH))
  let sec := timestampRound ((((d.sub (F64.ofInt rd)).add mrd).sub (F64.ofInt mrd.toI32)).mul
    (F64.ofInt SECS_PER_DAY))
  let (day, sec) ← carryDays p rd sec
  let day ← chk32 p (day + mrd.toI32)
  pure (day, sec)

/-- src/interval.rs:289-351 `Interval::mul_f64`. -/
def mulF64 (p : Profile) (a : Interval) (f : F64) : Res Interval :=
  let m := (F64.ofInt a.month).mul f
  if outOfI32 m then .err .overflow
  else
    let d := (F64.ofInt a.day).mul f
    if outOfI32 d then .err .overflow
    else do
      let (day, sec) ← cascade p m d m.toI32 d.toI32
      let t := (((F64.ofInt a.time).mul f).add (sec.mul (F64.ofInt USECS_PER_SEC))).round
      if (F64.ofInt i64Max).lt t || t.lt (F64.ofInt i64Min) then .err .overflow
      else .ok ⟨m.toI32, day, t.toI64⟩

/-- src/interval.rs:355-388 `Interval::div_f64`. -/
def divF64 (p : Profile) (a : Interval) (f : F64) : Res Interval :=
  if f = .fin 0 then .err .invalid
  else do
    let m := (F64.ofInt a.month).div f
    let d := (F64.ofInt a.day).div f
    let (day, sec) ← cascade p m d m.toI32 d.toI32
    let t := (((F64.ofInt a.time).div f).add (sec.mul (F64.ofInt USECS_PER_SEC))).round
    .ok ⟨m.toI32, day, t.toI64⟩

end Interval

end Pg
