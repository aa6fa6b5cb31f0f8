import Verif.Model.PgTime

/-!
# Model of the public value types and of their arithmetic

`Date` (src/date.rs), `Time` (src/time.rs), `Timestamp` (src/timestamp.rs),
`Interval` (src/interval.rs), without text input/output and without `f64`.
-/

namespace Pg

/-- src/date.rs:52 `Date(i32)`. -/
structure Date where
  v : Int
  deriving DecidableEq, Repr
/-- src/time.rs:34 `Time(i64)`. -/
structure Time where
  v : Int
  deriving DecidableEq, Repr
/-- src/timestamp.rs:51 `Timestamp(i64)`. -/
structure Timestamp where
  v : Int
  deriving DecidableEq, Repr
/-- src/interval.rs:75-82 `Interval`. -/
structure Interval where
  month : Int
  day : Int
  time : Int
  deriving DecidableEq, Repr

/-- src/date.rs:367-380 `From<i32> for Date`, `From<Date> for i32`. -/
def Date.ofI32 (v : Int) : Date := ⟨v⟩
@[inherit_doc Date.ofI32] def Date.toI32 (d : Date) : Int := d.v
/-- src/time.rs:218-231 `From<i64> for Time`, `From<Time> for i64`. -/
def Time.ofI64 (v : Int) : Time := ⟨v⟩
@[inherit_doc Time.ofI64] def Time.toI64 (t : Time) : Int := t.v
/-- src/timestamp.rs:705-718 `From<i64> for Timestamp`, `From<Timestamp> for i64`. -/
def Timestamp.ofI64 (v : Int) : Timestamp := ⟨v⟩
@[inherit_doc Timestamp.ofI64] def Timestamp.toI64 (t : Timestamp) : Int := t.v
/-- src/date.rs:50 derived `Ord` of `Date`. -/
def Date.cmp (a b : Date) : Ordering := compare a.v b.v
/-- src/time.rs:32 derived `Ord` of `Time`. -/
def Time.cmp (a b : Time) : Ordering := compare a.v b.v
/-- src/timestamp.rs:49 derived `Ord` of `Timestamp`. -/
def Timestamp.cmp (a b : Timestamp) : Ordering := compare a.v b.v

/-- src/lib.rs:44-69 `DateUnit`. -/
inductive DateUnit where
  | delta | second | minute | hour | day | week | month | quarter | year | decade | century
  | millisec | microsec | julian | dow | isoDow | doy | tz | tzMinute | tzHour | millennium
  | isoYear | epoch
  deriving DecidableEq, Repr

/-- src/lib.rs:127-134 `FieldType`. -/
inductive FieldType where
  | unit | epoch
  deriving DecidableEq, Repr

/-- `i32::MIN`/`i32::MAX`/`i64::MIN`/`i64::MAX`. -/
notation "i32Min" => (-2147483648 : Int)
/-- See above. -/ notation "i32Max" => (2147483647 : Int)
/-- See above. -/ notation "i64Min" => (-9223372036854775808 : Int)
/-- See above. -/ notation "i64Max" => (9223372036854775807 : Int)

/-! ## Interval arithmetic -/

namespace Interval

/-- src/interval.rs:87-93 `Interval::new`. -/
def zero : Interval := ⟨0, 0, 0⟩

/-- Component ranges of the Rust struct (`i32`, `i32`, `i64`). -/
def WF (a : Interval) : Prop := In32 a.month ∧ In32 a.day ∧ In64 a.time

instance (a : Interval) : Decidable a.WF := inferInstanceAs (Decidable (_ ∧ _ ∧ _))

/-- src/interval.rs:146-165 `Interval::add_interval`. -/
def addInterval (a b : Interval) : Res Interval :=
  match checked32 (a.month + b.month) with
  | none => .err .overflow
  | some m => match checked32 (a.day + b.day) with
    | none => .err .overflow
    | some d => match checked64 (a.time + b.time) with
      | none => .err .overflow
      | some t => .ok ⟨m, d, t⟩

/-- src/interval.rs:169-189 `Interval::negate`. -/
def negate (a : Interval) : Res Interval :=
  match checked64 (-a.time) with
  | none => .err .overflow
  | some t => match checked32 (-a.day) with
    | none => .err .overflow
    | some d => match checked32 (-a.month) with
      | none => .err .overflow
      | some m => .ok ⟨m, d, t⟩

/-- src/interval.rs:193-212 `Interval::sub_interval`. -/
def subInterval (a b : Interval) : Res Interval :=
  match checked32 (a.month - b.month) with
  | none => .err .overflow
  | some m => match checked32 (a.day - b.day) with
    | none => .err .overflow
    | some d => match checked64 (a.time - b.time) with
      | none => .err .overflow
      | some t => .ok ⟨m, d, t⟩

/-- src/common.rs:574-582 `time_modulo`: `(left, q)`. -/
def timeModulo (p : Profile) (t unit : Int) : Res (Int × Int) := do
  let q := tdiv t unit
  if q ≠ 0 then do
    let s ← chk64 p (q * unit)
    let left ← chk64 p (t - s)
    pure (left, q)
  else pure (t, q)

/-- src/interval.rs:224-230 and 277-283: make the signs of day and time agree. -/
def signDayTime (p : Profile) (month day time : Int) : Res Interval :=
  if day > 0 ∧ time < 0 then do
    let time ← chk64 p (time + USECS_PER_DAY)
    let day ← chk32 p (day - 1)
    pure ⟨month, day, time⟩
  else if day < 0 ∧ time > 0 then do
    let time ← chk64 p (time - USECS_PER_DAY)
    let day ← chk32 p (day + 1)
    pure ⟨month, day, time⟩
  else .ok ⟨month, day, time⟩

/-- src/interval.rs:219-232 `Interval::justify_hours`. -/
def justifyHours (p : Profile) (a : Interval) : Res Interval := do
  let (time, wholeDay) ← timeModulo p a.time USECS_PER_DAY
  signDayTime p a.month (wrap32 (a.day + wrap32 wholeDay)) time

/-- src/interval.rs:243-249: make the signs of month and day agree. -/
def signMonthDay (p : Profile) (month day time : Int) : Res Interval :=
  if month > 0 ∧ day < 0 then do
    let day ← chk32 p (day + DAYS_PER_MONTH)
    let month ← chk32 p (month - 1)
    pure ⟨month, day, time⟩
  else if month < 0 ∧ day > 0 then do
    let day ← chk32 p (day - DAYS_PER_MONTH)
    let month ← chk32 p (month + 1)
    pure ⟨month, day, time⟩
  else .ok ⟨month, day, time⟩

/-- src/interval.rs:237-251 `Interval::justify_days`. -/
def justifyDays (p : Profile) (a : Interval) : Res Interval := do
  let wholeMonth := tdiv a.day DAYS_PER_MONTH
  let t ← chk32 p (wholeMonth * DAYS_PER_MONTH)
  let day ← chk32 p (a.day - t)
  signMonthDay p (wrap32 (a.month + wholeMonth)) day a.time

/-- src/interval.rs:269-275: make the sign of month agree with day and time. -/
def signMonth (p : Profile) (month day time : Int) : Res (Int × Int) :=
  if month > 0 ∧ (day < 0 ∨ (day = 0 ∧ time < 0)) then do
    let day ← chk32 p (day + DAYS_PER_MONTH)
    let month ← chk32 p (month - 1)
    pure (month, day)
  else if month < 0 ∧ (day > 0 ∨ (day = 0 ∧ time > 0)) then do
    let day ← chk32 p (day - DAYS_PER_MONTH)
    let month ← chk32 p (month + 1)
    pure (month, day)
  else .ok (month, day)

/-- src/interval.rs:260-285 `Interval::justify_interval`. -/
def justifyInterval (p : Profile) (a : Interval) : Res Interval := do
  let (time, wholeDay) ← timeModulo p a.time USECS_PER_DAY
  let day := wrap32 (a.day + wrap32 wholeDay)
  let wholeMonth := tdiv day DAYS_PER_MONTH
  let t ← chk32 p (wholeMonth * DAYS_PER_MONTH)
  let day := wrap32 (day - t)
  let (month, day) ← signMonth p (wrap32 (a.month + wholeMonth)) day time
  signDayTime p month day time

/-- src/interval.rs:974-982 `From<Interval> for i128`. The sum cannot leave `i128`. -/
def toI128 (a : Interval) : Int :=
  a.time + a.day * USECS_PER_DAY + a.month * DAYS_PER_MONTH * USECS_PER_DAY

/-- src/interval.rs:1003-1010 `Ord::cmp`. -/
def cmp (a b : Interval) : Ordering := compare a.toI128 b.toI128

/-- src/interval.rs:994-1001 `PartialOrd::partial_cmp`. -/
def partialCmp (a b : Interval) : Option Ordering := some (compare a.toI128 b.toI128)

/-- src/interval.rs:985-992 `Add for Interval`: `unwrap` of `add_interval`. -/
def add (a b : Interval) : Res Interval :=
  match addInterval a b with
  | .ok r => .ok r
  | _ => .panic

/-- src/interval.rs:392-403 `Interval::from_pgtime`. `year as f64 * 12 + mon as f64` is an
exact integer below 2^53, so it is modelled in `Int`. `hour * 60 + min` is `i32` arithmetic. -/
def fromPgtime (p : Profile) (tm : PgTime) (fsec : Int) : Res Interval := do
  let total := tm.year * MONTHS_PER_YEAR + tm.mon
  if total > i32Max ∨ total < i32Min then .err .overflow
  else do
    let t ← chk32 p (tm.hour * 60)
    let t ← chk32 p (t + tm.min)
    let t ← chk64 p (t * 60)
    let t ← chk64 p (t + tm.sec)
    let t ← chk64 p (t * USECS_PER_SEC)
    let time ← chk64 p (t + fsec)
    pure ⟨total, tm.mday, time⟩

/-- src/interval.rs:407-426 `Interval::to_pgtime`. -/
def toPgtime (p : Profile) (a : Interval) : Res (PgTime × Int) := do
  let year := tdiv a.month MONTHS_PER_YEAR
  let mon := tmod a.month MONTHS_PER_YEAR
  let time := a.time
  let tfrac := tdiv time USECS_PER_HOUR
  let t ← chk64 p (tfrac * USECS_PER_HOUR)
  let time ← chk64 p (time - t)
  if tfrac < i32Min ∨ tfrac > i32Max then .err .overflow
  else do
    let hour := wrap32 tfrac
    let tfrac := tdiv time USECS_PER_MINUTE
    let t ← chk64 p (tfrac * USECS_PER_MINUTE)
    let time ← chk64 p (time - t)
    let min := wrap32 tfrac
    let tfrac := tdiv time USECS_PER_SEC
    let t ← chk64 p (tfrac * USECS_PER_SEC)
    let fsec ← chk64 p (time - t)
    pure ({ PgTime.new with year := year, mon := mon, mday := a.day, hour := hour, min := min,
                            sec := wrap32 tfrac }, fsec)

/-- src/interval.rs:51-54, src/time.rs:26-29, src/timestamp.rs:35-46: scale tables, equal in
the three files. -/
def scales : List Int := [1000000, 100000, 10000, 1000, 100, 10, 1]
@[inherit_doc scales] def offsets : List Int := [500000, 50000, 5000, 500, 50, 5, 0]

/-- The rounding expression shared by the three `adjust_by_typmod`
(src/time.rs:88-95, src/timestamp.rs:234-243, src/interval.rs:518-526). -/
def roundScale (p : Profile) (v scale offset : Int) : Res Int :=
  if v ≥ 0 then do
    let t ← chk64 p (v + offset)
    chk64 p (tdiv t scale * scale)
  else do
    let t ← chk64 p (-v)
    let t ← chk64 p (t + offset)
    let t ← chk64 p (tdiv t scale * scale)
    chk64 p (-t)

/-- Table lookup followed by rounding; an index outside the table panics. -/
def roundTo (p : Profile) (v : Int) (precision : Int) : Res Int :=
  match scales[precision.toNat]?, offsets[precision.toNat]? with
  | some s, some o => roundScale p v s o
  | _, _ => .panic

/-- src/interval.rs:57-59 `interval_range`, for `t ≥ 0` (both callers check). -/
def intervalRange (t : Int) : Nat := (t.toNat >>> 16) &&& 0x7FFF
/-- src/interval.rs:68-70 `interval_precision`, for `t ≥ 0`. -/
def intervalPrecision (t : Int) : Int := ((t.toNat &&& 0xFFFF : Nat) : Int)

/-- src/interval.rs:45 -/
notation "INTERVAL_FULL_RANGE" => (0x7FFF : Nat)
/-- src/interval.rs:48 -/
notation "INTERVAL_FULL_PRECISION" => (0xFFFF : Int)

/-- src/interval.rs:454-510: the field-range step of `adjust_by_typmod`. The products cannot
leave their type. -/
def adjustRange (a : Interval) (range : Nat) : Res Interval :=
  if range = INTERVAL_FULL_RANGE then .ok a
  else if range = M_YEAR then
    .ok ⟨tdiv a.month MONTHS_PER_YEAR * MONTHS_PER_YEAR, 0, 0⟩
  else if range = M_MONTH ∨ range = M_YEAR ||| M_MONTH then .ok ⟨a.month, 0, 0⟩
  else if range = M_DAY then .ok ⟨a.month, a.day, 0⟩
  else if range = M_HOUR then
    .ok ⟨a.month, a.day, tdiv a.time USECS_PER_HOUR * USECS_PER_HOUR⟩
  else if range = M_MINUTE then
    .ok ⟨a.month, a.day, tdiv a.time USECS_PER_MINUTE * USECS_PER_MINUTE⟩
  else if range = M_SECOND then .ok a
  else if range = M_DAY ||| M_HOUR then
    .ok ⟨a.month, a.day, tdiv a.time USECS_PER_HOUR * USECS_PER_HOUR⟩
  else if range = M_DAY ||| M_HOUR ||| M_MINUTE then
    .ok ⟨a.month, a.day, tdiv a.time USECS_PER_MINUTE * USECS_PER_MINUTE⟩
  else if range = M_DAY ||| M_HOUR ||| M_MINUTE ||| M_SECOND then .ok a
  else if range = M_HOUR ||| M_MINUTE then
    .ok ⟨a.month, a.day, tdiv a.time USECS_PER_MINUTE * USECS_PER_MINUTE⟩
  else if range = M_HOUR ||| M_MINUTE ||| M_SECOND ∨ range = M_MINUTE ||| M_SECOND then .ok a
  else .err .invalid

/-- src/interval.rs:429-531 `Interval::adjust_by_typmod`. -/
def adjustByTypmod (p : Profile) (a : Interval) (typmod : Int) : Res Interval :=
  if typmod ≥ 0 then do
    let range := intervalRange typmod
    let precision := intervalPrecision typmod
    let a ← adjustRange a range
    if precision ≠ INTERVAL_FULL_PRECISION then
      if precision < 0 ∨ precision > 6 then .err .overflow
      else do
        let t ← roundTo p a.time precision
        pure ⟨a.month, a.day, t⟩
    else pure a
  else .ok a

/-- src/interval.rs:1074-1093: unit dispatch of `truncate`. -/
def truncUnit (s : TmF) : DateUnit → Res TmF
  | .millennium => .ok (truncIntervalMillennium s)
  | .century => .ok (truncIntervalCentury s)
  | .decade => .ok (truncIntervalDecade s)
  | .year => .ok (truncIntervalYear s)
  | .quarter => .ok (truncIntervalQuarter s)
  | .month => .ok (truncIntervalMonth s)
  | .day => .ok (truncDay s)
  | .hour => .ok (truncHour s)
  | .minute => .ok (truncMinute s)
  | .second => .ok (truncSec s)
  | .millisec => .ok (truncMilliSec s)
  | .microsec => .ok (truncMicroSec s)
  | _ => .err .invalid

/-- src/interval.rs:1067-1098 `DateTime::truncate for Interval`. -/
def truncate (p : Profile) (a : Interval) (ty : FieldType) (unit : DateUnit) : Res Interval :=
  match ty with
  | .epoch => .err .invalid
  | .unit => do
    let s ← toPgtime p a
    let s ← truncUnit s unit
    fromPgtime p s.1 s.2

/-- src/interval.rs:967-972 `From<Time> for Interval`. -/
def ofTime (t : Time) : Interval := ⟨0, 0, t.v⟩

end Interval

/-! ## Time -/

namespace Time

/-- src/time.rs:74-78 `Time::from_pgtime`. -/
def fromPgtime (p : Profile) (tm : PgTime) (fsec : Int) : Res Time := do
  let t ← chk32 p (tm.hour * MINS_PER_HOUR)
  let t ← chk32 p (t + tm.min)
  let secs ← chk32 p (t * SECS_PER_MINUTE)
  let t ← chk64 p (secs + tm.sec)
  let usecs ← chk64 p (t * USECS_PER_SEC)
  let t ← chk64 p (usecs + fsec)
  pure ⟨t⟩

/-- src/time.rs:86-101 `Time::adjust_by_typmod`. -/
def adjustByTypmod (p : Profile) (t : Time) (typmod : Int) : Res Time :=
  if typmod ≥ 0 ∧ typmod ≤ 6 then do
    let r ← Interval.roundTo p t.v typmod
    pure ⟨r⟩
  else .ok t

/-- src/time.rs:152-155 and 170-173: a negative remainder is moved into the day. -/
def wrapNegative (p : Profile) (result : Int) : Res Time :=
  if result < 0 then do
    let r ← chk64 p (result + USECS_PER_DAY)
    pure ⟨r⟩
  else .ok ⟨result⟩

/-- src/time.rs:149-156 `Time::add_interval`. -/
def addInterval (p : Profile) (t : Time) (span : Interval) : Res Time := do
  let result := wrap64 (t.v + span.time)
  let s ← chk64 p (tdiv result USECS_PER_DAY * USECS_PER_DAY)
  let result ← chk64 p (result - s)
  wrapNegative p result

/-- src/time.rs:160-163 `Time::sub_time`. -/
def subTime (a b : Time) : Interval := ⟨0, 0, wrap64 (a.v - b.v)⟩

/-- src/time.rs:167-174 `Time::sub_interval`. -/
def subInterval (p : Profile) (t : Time) (span : Interval) : Res Time := do
  let result := wrap64 (t.v - span.time)
  let s ← chk64 p (tdiv result USECS_PER_DAY * USECS_PER_DAY)
  let result ← chk64 p (result - s)
  wrapNegative p result

/-- src/time.rs:178-187 `Time::to_pgtime`. -/
def toPgtime (p : Profile) (t : Time) : Res (PgTime × Int) := do
  let time := t.v
  let hour := wrap32 (tdiv time USECS_PER_HOUR)
  let s ← chk64 p (hour * USECS_PER_HOUR)
  let time ← chk64 p (time - s)
  let min := wrap32 (tdiv time USECS_PER_MINUTE)
  let s ← chk64 p (min * USECS_PER_MINUTE)
  let time ← chk64 p (time - s)
  let sec := wrap32 (tdiv time USECS_PER_SEC)
  let s ← chk64 p (sec * USECS_PER_SEC)
  let time ← chk64 p (time - s)
  pure ({ PgTime.new with hour := hour, min := min, sec := sec }, time)

/-- src/time.rs:262-275 `From<Interval> for Time`. -/
def ofInterval (p : Profile) (a : Interval) : Res Time :=
  if a.time ≥ USECS_PER_DAY then do
    let t ← chk64 p (tdiv a.time USECS_PER_DAY * USECS_PER_DAY)
    let r ← chk64 p (a.time - t)
    pure ⟨r⟩
  else if a.time < 0 then do
    let t ← chk64 p (-a.time)
    let t ← chk64 p (t + USECS_PER_DAY)
    let t ← chk64 p (t - 1)
    let t ← chk64 p (tdiv t USECS_PER_DAY * USECS_PER_DAY)
    let r ← chk64 p (a.time + t)
    pure ⟨r⟩
  else .ok ⟨a.time⟩

/-- src/time.rs:316-320 `DateTime::truncate for Time`. -/
def truncate (p : Profile) (t : Time) (ty : FieldType) (unit : DateUnit) : Res Time := do
  let it ← Interval.truncate p (Interval.ofTime t) ty unit
  ofInterval p it

end Time

/-! ## Timestamp -/

namespace Timestamp

/-- src/timestamp.rs:72-79, 870-872: `is_begin`, `is_end`, `is_finite`. -/
def isInfinite (t : Timestamp) : Bool := t.v = i64Min || t.v = i64Max

/-- src/timestamp.rs:746-748 -/
def BEGIN : Timestamp := ⟨i64Min⟩
@[inherit_doc BEGIN] def END : Timestamp := ⟨i64Max⟩

/-- src/timestamp.rs:225-248 `Timestamp::adjust_by_typmod`. -/
def adjustByTypmod (p : Profile) (t : Timestamp) (typmod : Int) : Res Timestamp :=
  if ¬ t.isInfinite ∧ typmod ≠ -1 ∧ typmod ≠ 6 then
    if typmod < 0 ∨ typmod > 6 then .err .invalid
    else do
      let r ← Interval.roundTo p t.v typmod
      pure ⟨r⟩
  else .ok t

/-- src/timestamp.rs:268-275: normalisation of the month number after adding months. -/
def normMonth (p : Profile) (year mon : Int) : Res (Int × Int) :=
  if mon > MONTHS_PER_YEAR then do
    let u ← chk32 p (mon - 1)
    let mon ← chk32 p (tmod u MONTHS_PER_YEAR + 1)
    pure (wrap32 (year + tdiv u MONTHS_PER_YEAR), mon)
  else if mon < 1 then do
    let u ← chk32 p (tdiv mon MONTHS_PER_YEAR - 1)
    let mon ← chk32 p (tmod mon MONTHS_PER_YEAR + MONTHS_PER_YEAR)
    pure (wrap32 (year + u), mon)
  else .ok (year, mon)

/-- src/timestamp.rs:263-284: the month step of `add_interval`. -/
def addMonths (p : Profile) (t : Int) (n : Int) : Res Int := do
  let (tm, fsec) ← timestamp2time p t
  let (year, mon) ← normMonth p tm.year (wrap32 (tm.mon + n))
  let maxDays ← daysOfMonth year mon
  let mday := if tm.mday > maxDays then maxDays else tm.mday
  PgTime.toTimestamp p { tm with year := year, mon := mon, mday := mday } fsec

/-- src/timestamp.rs:286-295: the day step of `add_interval`. -/
def addDays (p : Profile) (t : Int) (n : Int) : Res Int := do
  let (tm, fsec) ← timestamp2time p t
  let j ← date2julian p tm.year tm.mon tm.mday
  let c ← julian2date p (wrap32 (j + n))
  PgTime.toTimestamp p (tm.setYmd c) fsec

/-- src/timestamp.rs:263: months are added only when nonzero. -/
def monthStep (p : Profile) (t n : Int) : Res Int := if n ≠ 0 then addMonths p t n else .ok t
/-- src/timestamp.rs:286: days are added only when nonzero. -/
def dayStep (p : Profile) (t n : Int) : Res Int := if n ≠ 0 then addDays p t n else .ok t

/-- src/timestamp.rs:258-308 `Timestamp::add_interval`. -/
def addInterval (p : Profile) (t : Timestamp) (span : Interval) : Res Timestamp :=
  if t.isInfinite then .ok t
  else do
    let r ← monthStep p t.v span.month
    let r ← dayStep p r span.day
    let r := wrap64 (r + span.time)
    if isValidTimestamp r then .ok ⟨r⟩ else .err .invalid

/-- src/timestamp.rs:312-315 `Timestamp::add_time`. -/
def addTime (p : Profile) (t : Timestamp) (time : Time) : Res Timestamp :=
  addInterval p t (Interval.ofTime time)

/-- src/timestamp.rs:319-322 `Timestamp::sub_interval`. -/
def subInterval (p : Profile) (t : Timestamp) (span : Interval) : Res Timestamp := do
  let n ← Interval.negate span
  addInterval p t n

/-- src/timestamp.rs:333-336 `Timestamp::sub_time`. -/
def subTime (p : Profile) (t : Timestamp) (time : Time) : Res Timestamp :=
  subInterval p t (Interval.ofTime time)

/-- src/timestamp.rs:340-377 `Timestamp::sub_timestamp`. -/
def subTimestamp (p : Profile) (a b : Timestamp) : Res Interval :=
  if a.isInfinite || b.isInfinite then .err .invalid
  else do
    let time ← chk64 p (a.v - b.v)
    Interval.justifyHours p ⟨0, 0, time⟩

/-- src/timestamp.rs:721-743 `TryFrom<Date> for Timestamp`. -/
def ofDate (p : Profile) (d : Date) : Res Timestamp :=
  if d.v = i32Min then .ok BEGIN
  else if d.v = i32Max then .ok END
  else if d.v ≥ TIMESTAMP_END_JULIAN - POSTGRES_EPOCH_JDATE then .err .overflow
  else do
    let r ← chk64 p (d.v * USECS_PER_DAY)
    pure ⟨r⟩

/-- src/timestamp.rs:326-329 `Timestamp::sub_date`. -/
def subDate (p : Profile) (t : Timestamp) (d : Date) : Res Interval := do
  let u ← ofDate p d
  subTimestamp p t u

/-- src/timestamp.rs:422-455: one borrow loop of `age`; each iteration adds `unit` to the
low field and takes 1 from the high field until the low field is non-negative. -/
def borrow (p : Profile) (chk : Profile → Int → Res Int) (unit : Int) :
    Nat → Int → Int → Res (Int × Int)
  | 0, lo, hi => if lo < 0 then .panic else .ok (lo, hi)
  | n + 1, lo, hi =>
    if lo < 0 then do
      let lo ← chk p (lo + unit)
      let hi ← chk32 p (hi - 1)
      borrow p chk unit n lo hi
    else .ok (lo, hi)

/-- The seven difference fields handled by `age` (src/timestamp.rs:400-406). -/
structure AgeTm where
  year : Int
  mon : Int
  mday : Int
  hour : Int
  min : Int
  sec : Int
  fsec : Int
  deriving DecidableEq, Repr

/-- src/timestamp.rs:400-406: symbolic difference. -/
def ageDiff (p : Profile) (a b : PgTime × Int) : Res AgeTm := do
  let fsec ← chk64 p (a.2 - b.2)
  let sec ← chk32 p (a.1.sec - b.1.sec)
  let min ← chk32 p (a.1.min - b.1.min)
  let hour ← chk32 p (a.1.hour - b.1.hour)
  let mday ← chk32 p (a.1.mday - b.1.mday)
  let mon ← chk32 p (a.1.mon - b.1.mon)
  let year ← chk32 p (a.1.year - b.1.year)
  pure ⟨year, mon, mday, hour, min, sec, fsec⟩

/-- src/timestamp.rs:409-417 and 458-466: sign flip when `self < timestamp`. -/
def ageFlip (p : Profile) (neg : Bool) (x : AgeTm) : Res AgeTm :=
  if neg then do
    let fsec ← chk64 p (-x.fsec)
    let sec ← chk32 p (-x.sec)
    let min ← chk32 p (-x.min)
    let hour ← chk32 p (-x.hour)
    let mday ← chk32 p (-x.mday)
    let mon ← chk32 p (-x.mon)
    let year ← chk32 p (-x.year)
    pure ⟨year, mon, mday, hour, min, sec, fsec⟩
  else .ok x

/-- src/timestamp.rs:443-449: the month whose length is borrowed; only evaluated when the loop
runs. -/
def ageMonthLen (mday year mon : Int) : Res Int :=
  if mday < 0 then daysOfMonth year mon else .ok 0

/-- src/timestamp.rs:422-455: the borrow loops, from microseconds up to months. `(my, mm)` is
the month whose length is used for day borrows. -/
def ageBorrow (p : Profile) (my mm : Int) (x : AgeTm) : Res AgeTm := do
  let (fsec, sec) ← borrow p chk64 USECS_PER_SEC 4 x.fsec x.sec
  let (sec, min) ← borrow p chk32 SECS_PER_MINUTE 4 sec x.min
  let (min, hour) ← borrow p chk32 MINS_PER_HOUR 4 min x.hour
  let (hour, mday) ← borrow p chk32 HOURS_PER_DAY 4 hour x.mday
  let dim ← ageMonthLen mday my mm
  let (mday, mon) ← borrow p chk32 dim 4 mday x.mon
  let (mon, year) ← borrow p chk32 MONTHS_PER_YEAR 4 mon x.year
  pure ⟨year, mon, mday, hour, min, sec, fsec⟩

/-- src/timestamp.rs:384-470 `Timestamp::age`. The borrow loops are bounded here by fuel 4
(running out of fuel would be `panic`; it is proved unreachable for valid timestamps). -/
def age (p : Profile) (a b : Timestamp) : Res Interval := do
  let t1 ← timestamp2time p a.v
  let t2 ← timestamp2time p b.v
  let neg : Bool := a.v < b.v
  let x ← ageDiff p t1 t2
  let x ← ageFlip p neg x
  let x ← ageBorrow p (if neg then t1.1.year else t2.1.year) (if neg then t1.1.mon else t2.1.mon) x
  let x ← ageFlip p neg x
  Interval.fromPgtime p
    { PgTime.new with sec := x.sec, min := x.min, hour := x.hour, mday := x.mday, mon := x.mon,
                      year := x.year }
    x.fsec

/-- src/timestamp.rs:883-903: unit dispatch of `truncate`. -/
def truncUnit (p : Profile) (s : TmF) : DateUnit → Res TmF
  | .week => truncTimestampWeek p s
  | .millennium => truncTimestampMillennium p s
  | .century => truncTimestampCentury p s
  | .decade => truncTimestampDecade p s
  | .year => truncTimestampYear p s
  | .quarter => truncTimestampQuarter p s
  | .month => .ok (truncTimestampMonth s)
  | .day => .ok (truncDay s)
  | .hour => .ok (truncHour s)
  | .minute => .ok (truncMinute s)
  | .second => .ok (truncSec s)
  | .millisec => .ok (truncMilliSec s)
  | .microsec => .ok (truncMicroSec s)
  | _ => .err .invalid

/-- src/timestamp.rs:876-913 `DateTime::truncate for Timestamp`. -/
def truncate (p : Profile) (t : Timestamp) (ty : FieldType) (unit : DateUnit) : Res Timestamp :=
  match ty with
  | .epoch => .err .invalid
  | .unit => do
    let s ← timestamp2time p t.v
    let s ← truncUnit p s unit
    let r ← PgTime.toTimestamp p s.1 s.2
    pure ⟨r⟩

end Timestamp

/-- src/time.rs:234-255 `TryFrom<Timestamp> for Option<Time>`. -/
def Time.ofTimestamp (p : Profile) (t : Timestamp) : Res (Option Time) :=
  if t.isInfinite then .ok none
  else do
    let (tm, fsec) ← timestamp2time p t.v
    let u ← chk32 p (tm.hour * MINS_PER_HOUR)
    let u ← chk32 p (u + tm.min)
    let u ← chk32 p (u * SECS_PER_MINUTE)
    let u ← chk64 p (u + tm.sec)
    let u ← chk64 p (u * USECS_PER_SEC)
    let r ← chk64 p (u + fsec)
    pure (some ⟨r⟩)

/-! ## Date -/

namespace Date

/-- src/date.rs:39-47 `is_valid_date`. -/
def isValidDate (d : Int) : Bool := 0 - POSTGRES_EPOCH_JDATE ≤ d && d < 2147483494 - POSTGRES_EPOCH_JDATE

/-- src/date.rs:99-106, 417-419 `is_begin`, `is_end`, `is_finite`. -/
def isInfinite (d : Date) : Bool := d.v = i32Min || d.v = i32Max

/-- src/date.rs:404-405 -/
def BEGIN : Date := ⟨i32Min⟩
@[inherit_doc BEGIN] def END : Date := ⟨i32Max⟩

/-- src/date.rs:76-79: negative years are BC years. -/
def absYear (p : Profile) (y : Int) : Res Int := if y < 0 then chk32 p (-y) else .ok y

/-- src/date.rs:69-96 `Date::try_from_ymd`. -/
def tryFromYmd (p : Profile) (y m d : Int) : Res Date := do
  let year ← absYear p y
  let tm : PgTime := { PgTime.new with year := year, mon := m, mday := d }
  let tm ← tm.validateDate p DTK_DATE_M false false (y < 0)
  if ¬ isValidJulian tm.year tm.mon then .err .overflow
  else do
    let j ← date2julian p tm.year tm.mon tm.mday
    let date ← chk32 p (j - POSTGRES_EPOCH_JDATE)
    if isValidDate date then .ok ⟨date⟩ else .err .overflow

/-- src/date.rs:267: the year, month and day of a finite date as shown by `format`. -/
def fields (p : Profile) (d : Date) : Res (Int × Int × Int) := do
  let j ← chk32 p (d.v + POSTGRES_EPOCH_JDATE)
  julian2date p j

/-- src/date.rs:115-132 `Date::add_days`. -/
def addDays (d : Date) (n : Int) : Res Date :=
  if d.isInfinite then .ok d
  else match checked32 (d.v + n) with
    | none => .err .overflow
    | some r => if isValidDate r then .ok ⟨r⟩ else .err .overflow

/-- src/date.rs:170-190 `Date::sub_days`. -/
def subDays (d : Date) (n : Int) : Res Date :=
  if d.isInfinite then .ok d
  else match checked32 (d.v - n) with
    | none => .err .overflow
    | some r => if isValidDate r then .ok ⟨r⟩ else .err .invalid

/-- src/date.rs:157-166 `Date::sub_date`. -/
def subDate (p : Profile) (a b : Date) : Res Int :=
  if a.isInfinite || b.isInfinite then .err .invalid
  else chk32 p (a.v - b.v)

/-- src/date.rs:136-139 `Date::add_interval`. -/
def addInterval (p : Profile) (d : Date) (span : Interval) : Res Timestamp := do
  let t ← Timestamp.ofDate p d
  t.addInterval p span

/-- src/date.rs:194-197 `Date::sub_interval`. -/
def subInterval (p : Profile) (d : Date) (span : Interval) : Res Timestamp := do
  let t ← Timestamp.ofDate p d
  t.subInterval p span

/-- src/date.rs:143-153 `Date::add_time`. -/
def addTime (p : Profile) (d : Date) (time : Time) : Res Timestamp := do
  let t ← Timestamp.ofDate p d
  if ¬ t.isInfinite then do
    let t ← t.addTime p time
    if isValidTimestamp t.v then .ok t else .err .overflow
  else .ok t

/-- src/date.rs:383-401 `TryFrom<Timestamp> for Date`. -/
def ofTimestamp (p : Profile) (t : Timestamp) : Res Date :=
  if t.v = i64Min then .ok BEGIN
  else if t.v = i64Max then .ok END
  else do
    let (tm, _) ← timestamp2time p t.v
    let j ← date2julian p tm.year tm.mon tm.mday
    let r ← chk32 p (j - POSTGRES_EPOCH_JDATE)
    pure ⟨r⟩

/-- src/date.rs:423-427 `DateTime::truncate for Date`. -/
def truncate (p : Profile) (d : Date) (ty : FieldType) (unit : DateUnit) : Res Date := do
  let t ← Timestamp.ofDate p d
  let t ← t.truncate p ty unit
  ofTimestamp p t

end Date

end Pg
