import Verif.Model.Types
import Verif.Model.F64

/-!
# `date_part` (src/timestamp.rs, src/date.rs, src/time.rs, src/interval.rs)
-/

namespace Pg

/-- src/timestamp.rs:763, src/time.rs:287, src/interval.rs:1022: the `MicroSec` field. -/
def partMicros (sec fsec : Int) : F64 :=
  ((F64.ofInt sec).mul (.fin 1000000)).add (F64.ofInt fsec)

/-- src/timestamp.rs:764, src/time.rs:288, src/interval.rs:1023: the `MilliSec` field. -/
def partMillis (sec fsec : Int) : F64 :=
  ((F64.ofInt sec).mul (.fin 1000)).add ((F64.ofInt fsec).div (.fin 1000))

/-- src/timestamp.rs:765, src/time.rs:289, src/interval.rs:1024: the `Second` field. -/
def partSecond (sec fsec : Int) : F64 :=
  (F64.ofInt sec).add ((F64.ofInt fsec).div (.fin 1000000))

namespace Timestamp

/-- src/timestamp.rs:480-524 `Timestamp::infinite_part`. -/
def infinitePart (unit : DateUnit) (neg : Bool) : Res F64 :=
  match unit with
  | .microsec | .millisec | .second | .minute | .hour | .day | .month | .quarter | .week | .dow
  | .isoDow | .doy | .tz | .tzMinute | .tzHour => .ok (.fin 0)
  | .year | .decade | .century | .millennium | .julian | .isoYear | .epoch => .ok (.inf neg)
  | .delta => .err .invalid

/-- src/timestamp.rs:772-779: `Year`. -/
def partYear (p : Profile) (year : Int) : Res F64 :=
  if year > 0 then .ok (F64.ofInt year)
  else do
    let y ← chk32 p (year - 1)
    pure (F64.ofInt y)

/-- src/timestamp.rs:781-790: `Decade`. -/
def partDecade (p : Profile) (year : Int) : Res F64 :=
  if year ≥ 0 then .ok (F64.ofInt (tdiv year 10))
  else do
    let y ← chk32 p (year - 1)
    let y ← chk32 p (8 - y)
    let y ← chk32 p (-(tdiv y 10))
    pure (F64.ofInt y)

/-- src/timestamp.rs:791-801: `Century`. -/
def partCentury (p : Profile) (year : Int) : Res F64 :=
  if year > 0 then do
    let y ← chk32 p (year + 99)
    pure (F64.ofInt (tdiv y 100))
  else do
    let y ← chk32 p (year - 1)
    let y ← chk32 p (99 - y)
    let y ← chk32 p (-(tdiv y 100))
    pure (F64.ofInt y)

/-- src/timestamp.rs:802-809: `Millennium`. -/
def partMillennium (p : Profile) (year : Int) : Res F64 :=
  if year > 0 then do
    let y ← chk32 p (year + 999)
    pure (F64.ofInt (tdiv y 1000))
  else do
    let y ← chk32 p (year - 1)
    let y ← chk32 p (999 - y)
    let y ← chk32 p (-(tdiv y 1000))
    pure (F64.ofInt y)

/-- src/timestamp.rs:811-820: `JULIAN`. -/
def partJulian (p : Profile) (tm : PgTime) (fsec : Int) : Res F64 := do
  let date ← date2julian p tm.year tm.mon tm.mday
  let a ← chk64 p (tm.hour * MINS_PER_HOUR)
  let a ← chk64 p (a + tm.min)
  let a ← chk64 p (a * SECS_PER_MINUTE)
  pure ((F64.ofInt date).add
    ((((F64.ofInt a).add (F64.ofInt tm.sec)).add ((F64.ofInt fsec).div (.fin 1000000))).div
      (F64.ofInt SECS_PER_DAY)))

/-- src/timestamp.rs:823-834: `Dow` and `IsoDow`. -/
def partDow (p : Profile) (tm : PgTime) (iso : Bool) : Res F64 := do
  let date ← date2julian p tm.year tm.mon tm.mday
  let day ← julianToWeekDay p date
  if iso && day == 0 then .ok (.fin 7) else .ok (F64.ofInt day)

/-- src/timestamp.rs:835-843: `Doy`. -/
def partDoy (p : Profile) (tm : PgTime) : Res F64 := do
  let a ← date2julian p tm.year tm.mon tm.mday
  let b ← date2julian p tm.year 1 1
  let d ← chk32 p (a - b)
  let d ← chk32 p (d + 1)
  pure (F64.ofInt d)

/-- src/timestamp.rs:770: `Quarter`. -/
def partQuarter (p : Profile) (mon : Int) : Res F64 := do
  let m ← chk32 p (mon - 1)
  let q ← chk32 p (tdiv m 3 + 1)
  pure (F64.ofInt q)

/-- src/timestamp.rs:771 and 822: the two ISO week functions converted to `f64`. -/
def partOfInt (r : Res Int) : Res F64 := do
  let n ← r
  pure (F64.ofInt n)

/-- src/timestamp.rs:762-848: field of a decoded timestamp. -/
def fieldPart (p : Profile) (tm : PgTime) (fsec : Int) : DateUnit → Res F64
  | .microsec => .ok (partMicros tm.sec fsec)
  | .millisec => .ok (partMillis tm.sec fsec)
  | .second => .ok (partSecond tm.sec fsec)
  | .minute => .ok (F64.ofInt tm.min)
  | .hour => .ok (F64.ofInt tm.hour)
  | .day => .ok (F64.ofInt tm.mday)
  | .month => .ok (F64.ofInt tm.mon)
  | .quarter => partQuarter p tm.mon
  | .week => partOfInt (dateToIsoWeek p tm.year tm.mon tm.mday)
  | .year => partYear p tm.year
  | .decade => partDecade p tm.year
  | .century => partCentury p tm.year
  | .millennium => partMillennium p tm.year
  | .julian => partJulian p tm fsec
  | .isoYear => partOfInt (dateToIsoYear p tm.year tm.mon tm.mday)
  | .dow => partDow p tm false
  | .isoDow => partDow p tm true
  | .doy => partDoy p tm
  | _ => .err .invalid

/-- src/timestamp.rs:753-866 `Timestamp::date_part`. (`Dow`, `IsoDow` and `Doy` decode the
timestamp a second time, with the same result.) -/
def datePart (p : Profile) (t : Timestamp) (ty : FieldType) (unit : DateUnit) : Res F64 :=
  if t.isInfinite then infinitePart unit (t = BEGIN)
  else match ty with
    | .unit => do
      let (tm, fsec) ← timestamp2time p t.v
      fieldPart p tm fsec unit
    | .epoch => .err .invalid

end Timestamp

namespace Date

/-- src/date.rs:410-413 `Date::date_part`. -/
def datePart (p : Profile) (d : Date) (ty : FieldType) (unit : DateUnit) : Res F64 := do
  let t ← Timestamp.ofDate p d
  t.datePart p ty unit

end Date

namespace Time

/-- src/time.rs:286-296: field of a decoded time. -/
def fieldPart (tm : PgTime) (fsec : Int) : DateUnit → Res F64
  | .microsec => .ok (partMicros tm.sec fsec)
  | .millisec => .ok (partMillis tm.sec fsec)
  | .second => .ok (partSecond tm.sec fsec)
  | .minute => .ok (F64.ofInt tm.min)
  | .hour => .ok (F64.ofInt tm.hour)
  | _ => .err .invalid

/-- src/time.rs:280-306 `Time::date_part`. -/
def datePart (p : Profile) (t : Time) (ty : FieldType) (unit : DateUnit) : Res F64 :=
  match ty with
  | .unit => do
    let (tm, fsec) ← t.toPgtime p
    fieldPart tm fsec unit
  | .epoch => if unit = .epoch then .ok ((F64.ofInt t.v).div (.fin 1000000)) else .err .invalid

end Time

namespace Interval

/-- src/interval.rs:1029: `Quarter`. -/
def partQuarter (p : Profile) (mon : Int) : Res F64 := do
  let q ← chk32 p (tdiv mon 3 + 1)
  pure (F64.ofInt q)

/-- src/interval.rs:1021-1038: field of a decoded interval. -/
def fieldPart (p : Profile) (tm : PgTime) (fsec : Int) : DateUnit → Res F64
  | .microsec => .ok (partMicros tm.sec fsec)
  | .millisec => .ok (partMillis tm.sec fsec)
  | .second => .ok (partSecond tm.sec fsec)
  | .minute => .ok (F64.ofInt tm.min)
  | .hour => .ok (F64.ofInt tm.hour)
  | .day => .ok (F64.ofInt tm.mday)
  | .month => .ok (F64.ofInt tm.mon)
  | .quarter => partQuarter p tm.mon
  | .year => .ok (F64.ofInt tm.year)
  | .decade => .ok (F64.ofInt (tdiv tm.year 10))
  | .century => .ok (F64.ofInt (tdiv tm.year 100))
  | .millennium => .ok (F64.ofInt (tdiv tm.year 1000))
  | _ => .err .invalid

/-- src/interval.rs:1042-1048: seconds since the epoch, with 365.25-day years (src/common.rs:613,
an `f32` constant exactly representable) and 30-day months. -/
def epochPart (a : Interval) : F64 :=
  let r := (F64.ofInt a.time).div (.fin 1000000)
  let r := r.add (((F64.fin (1461 / 4)).mul (F64.ofInt SECS_PER_DAY)).mul (F64.ofInt (tdiv a.month MONTHS_PER_YEAR)))
  let r := r.add (((F64.ofInt DAYS_PER_MONTH).mul (F64.ofInt SECS_PER_DAY)).mul (F64.ofInt (tmod a.month MONTHS_PER_YEAR)))
  r.add ((F64.ofInt SECS_PER_DAY).mul (F64.ofInt a.day))

/-- src/interval.rs:1015-1057 `Interval::date_part`. -/
def datePart (p : Profile) (a : Interval) (ty : FieldType) (unit : DateUnit) : Res F64 :=
  match ty with
  | .unit => do
    let (tm, fsec) ← a.toPgtime p
    fieldPart p tm fsec unit
  | .epoch => if unit = .epoch then .ok (epochPart a) else .err .invalid

end Interval

end Pg
