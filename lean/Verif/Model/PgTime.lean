import Verif.Model.Calendar

/-!
# Model of `PgTime` (src/common.rs) and of the timestamp decomposition (src/parse.rs)
-/

namespace Pg

/-- src/common.rs:95-113 `PgTime`; `gmtoff` and `zone` are written but never read and
are dropped. -/
structure PgTime where
  sec : Int := 0
  min : Int := 0
  hour : Int := 0
  mday : Int := 0
  mon : Int := 0
  year : Int := 0
  wday : Int := 0
  yday : Int := 0
  isdst : Int := -1
  deriving DecidableEq, Repr

/-- src/common.rs:117-131 `PgTime::new`. -/
def PgTime.new : PgTime := {}

/-- src/common.rs:134-138 `PgTime::set_ymd`. -/
def PgTime.setYmd (tm : PgTime) (c : Int × Int × Int) : PgTime :=
  { tm with year := c.1, mon := c.2.1, mday := c.2.2 }

/-- `TokenType::mask` of the field codes (src/token.rs:86-140); masks are bit sets and are
modelled as `Nat`. -/
def mask (code : Nat) : Nat := 1 <<< code

/-- src/token.rs:90 -/ notation "M_MONTH" => (2 : Nat)
/-- src/token.rs:91 -/ notation "M_YEAR" => (4 : Nat)
/-- src/token.rs:92 -/ notation "M_DAY" => (8 : Nat)
/-- src/token.rs:104 -/ notation "M_HOUR" => (1024 : Nat)
/-- src/token.rs:105 -/ notation "M_MINUTE" => (2048 : Nat)
/-- src/token.rs:106 -/ notation "M_SECOND" => (4096 : Nat)
/-- src/token.rs:109 -/ notation "M_DOY" => (32768 : Nat)
/-- src/token.rs:166-167 `DTK_DATE_M`. -/
notation "DTK_DATE_M" => (14 : Nat)

/-- Bit test on masks. -/
def hasBits (f m : Nat) : Bool := f &&& m ≠ 0

/-- src/common.rs:292-319: the year step of `validate_date`. -/
def PgTime.validateYear (p : Profile) (tm : PgTime) (fMask : Nat)
    (isJulian is2digits bc : Bool) : Res PgTime :=
  if hasBits fMask M_YEAR then
    if isJulian then .ok tm
    else if bc then
      if tm.year ≤ 0 then .err .overflow
      else do
        let t ← chk32 p (tm.year - 1)
        let y ← chk32 p (-t)
        pure { tm with year := y }
    else if is2digits then
      if tm.year < 0 then .err .overflow
      else if tm.year < 70 then do
        let y ← chk32 p (tm.year + 2000)
        pure { tm with year := y }
      else if tm.year < 100 then do
        let y ← chk32 p (tm.year + 1900)
        pure { tm with year := y }
      else .ok tm
    else
      if tm.year ≤ 0 then .err .overflow else .ok tm
  else .ok tm

/-- src/common.rs:322-325: the day-of-year step of `validate_date`. -/
def PgTime.validateDoy (p : Profile) (tm : PgTime) (fMask : Nat) : Res PgTime :=
  if hasBits fMask M_DOY then do
    let j ← date2julian p tm.year 1 1
    let t ← chk32 p (j + tm.yday)
    let t ← chk32 p (t - 1)
    let c ← julian2date p t
    pure (tm.setYmd c)
  else .ok tm

/-- src/common.rs:328-344: the month and day step of `validate_date`. -/
def PgTime.validateMonthDay (tm : PgTime) (fMask : Nat) : Res PgTime :=
  if hasBits fMask M_MONTH && (tm.mon < 1 || tm.mon > MONTHS_PER_YEAR) then .err .overflow
  else if hasBits fMask M_DAY && (tm.mday < 1 || tm.mday > 31) then .err .overflow
  else if fMask &&& DTK_DATE_M = DTK_DATE_M then do
    let n ← daysOfMonth tm.year tm.mon
    if tm.mday > n then .err .overflow else .ok tm
  else .ok tm

/-- src/common.rs:285-345 `PgTime::validate_date`; returns the updated structure. -/
def PgTime.validateDate (p : Profile) (tm : PgTime) (fMask : Nat)
    (isJulian is2digits bc : Bool) : Res PgTime := do
  let tm ← tm.validateYear p fMask isJulian is2digits bc
  let tm ← tm.validateDoy p fMask
  tm.validateMonthDay fMask

/-- src/timestamp.rs:29 -/
notation "MIN_TIMESTAMP" => (-211813488000000000 : Int)
/-- src/timestamp.rs:30 -/
notation "END_TIMESTAMP" => (9223371331200000000 : Int)
/-- src/timestamp.rs:32 -/
notation "TIMESTAMP_END_JULIAN" => (109203528 : Int)

/-- src/timestamp.rs:528-530 `is_valid_timestamp`. -/
def isValidTimestamp (t : Int) : Bool := MIN_TIMESTAMP ≤ t && t < END_TIMESTAMP

/-- src/common.rs:390-394 `time2t`. -/
def time2t (p : Profile) (hour min sec fsec : Int) : Res Int := do
  let t ← chk32 p (hour * MINS_PER_HOUR)
  let t ← chk32 p (t + min)
  let t ← chk32 p (t * SECS_PER_MINUTE)
  let t ← chk64 p (t + sec)
  let t ← chk64 p (t * USECS_PER_SEC)
  chk64 p (t + fsec)

/-- src/common.rs:350-386 `PgTime::to_timestamp`, with `tz = None` (every caller). -/
def PgTime.toTimestamp (p : Profile) (tm : PgTime) (fsec : Int) : Res Int :=
  if ¬ isValidJulian tm.year tm.mon then .err .invalid
  else do
    let a ← date2julian p tm.year tm.mon tm.mday
    let b ← date2julian p 2000 1 1
    let date ← chk32 p (a - b)
    let time ← time2t p tm.hour tm.min tm.sec fsec
    match checked64 (date * USECS_PER_DAY) with
    | none => .err .overflow
    | some r =>
      match checked64 (r + time) with
      | none => .err .overflow
      | some r => if isValidTimestamp r then .ok r else .err .invalid

/-- src/parse.rs:1064-1068 `timestamp_modulo`. -/
def timestampModulo (p : Profile) (t perUnit : Int) : Res (Int × Int) := do
  let q := tdiv t perUnit
  if q ≠ 0 then do
    let s ← chk64 p (q * perUnit)
    let v ← chk64 p (t - s)
    pure (v, q)
  else pure (t, q)

/-- src/parse.rs:1050-1058 `date2time`: hour, minute, second, microsecond. -/
def date2time (p : Profile) (jd : Int) : Res (Int × Int × Int × Int) := do
  let time := jd
  let hour := wrap32 (tdiv time USECS_PER_HOUR)
  let t ← chk64 p (hour * USECS_PER_HOUR)
  let time ← chk64 p (time - t)
  let min := wrap32 (tdiv time USECS_PER_MINUTE)
  let t ← chk64 p (min * USECS_PER_MINUTE)
  let time ← chk64 p (time - t)
  let sec := wrap32 (tdiv time USECS_PER_SEC)
  let t ← chk64 p (sec * USECS_PER_SEC)
  let fsec ← chk64 p (time - t)
  pure (hour, min, sec, fsec)

/-- src/parse.rs:1084-1088: a negative remainder is moved into the previous day. -/
def dayNormalize (p : Profile) (time date : Int) : Res (Int × Int) :=
  if time < 0 then do
    let time ← chk64 p (time + USECS_PER_DAY)
    let date ← chk64 p (date - 1)
    pure (time, date)
  else .ok (time, date)

/-- src/parse.rs:1076-1113 `timestamp2time` with `tz = None` and a fresh `PgTime` (every
caller passes `PgTime::new()`); returns the filled structure and `fsec`. -/
def timestamp2time (p : Profile) (dt : Int) : Res (PgTime × Int) := do
  let (time, date) ← timestampModulo p dt USECS_PER_DAY
  let (time, date) ← dayNormalize p time date
  let date ← chk64 p (date + POSTGRES_EPOCH_JDATE)
  if date < 0 ∨ date > 2147483647 then .err .overflow
  else do
    let c ← julian2date p (wrap32 date)
    let tm := PgTime.new.setYmd c
    let (h, mi, s, f) ← date2time p time
    pure ({ tm with hour := h, min := mi, sec := s, isdst := -1 }, f)

/-- Shared subexpression of src/common.rs:424-427, 432-435, 443-446, 462-465, 488-491, 496-499, 509-512: the Julian day of the Monday of the week
that contains January 4 of `year`, computed as `day4 - julian_to_week_day(day4 - 1)`. -/
def isoWeek1 (p : Profile) (year : Int) : Res Int := do
  let day4 ← date2julian p year 1 4
  let t ← chk32 p (day4 - 1)
  let day0 ← julianToWeekDay p t
  chk32 p (day4 - day0)

/-- src/common.rs:431-436 and 495-502: the start of the ISO year `year`, or of the year before
when the day lies before it; also returns the ISO year used. -/
def isoStart (p : Profile) (year dayn : Int) : Res (Int × Int) := do
  let s ← isoWeek1 p year
  if dayn < s then do
    let y1 ← chk32 p (year - 1)
    let s ← isoWeek1 p y1
    pure (y1, s)
  else pure (year, s)

/-- src/common.rs:419-454 `date_to_iso_week`. -/
def dateToIsoWeek (p : Profile) (year mon mday : Int) : Res Int := do
  let dayn ← date2julian p year mon mday
  let (_, s) ← isoStart p year dayn
  let t ← chk32 p (dayn - s)
  let result ← chk32 p (tdiv t 7 + 1)
  if result ≥ 52 then do
    let y1 ← chk32 p (year + 1)
    let s ← isoWeek1 p y1
    if dayn ≥ s then do
      let u ← chk32 p (dayn - s)
      chk32 p (tdiv u 7 + 1)
    else pure result
  else pure result

/-- src/common.rs:460-468 `iso_week_to_julian`. -/
def isoWeekToJulian (p : Profile) (year week : Int) : Res Int := do
  let s ← isoWeek1 p year
  let w ← chk32 p (week - 1)
  let w ← chk32 p (w * 7)
  chk32 p (w + s)

/-- src/common.rs:474-478 `iso_week_to_date`. -/
def isoWeekToDate (p : Profile) (woy : Int) (tm : PgTime) : Res PgTime := do
  let j ← isoWeekToJulian p tm.year woy
  let c ← julian2date p j
  pure (tm.setYmd c)

/-- src/common.rs:482-520 `date_to_iso_year`. Unlike `date_to_iso_week`, the year tested at
the end is the already adjusted one. -/
def dateToIsoYear (p : Profile) (year mon mday : Int) : Res Int := do
  let dayn ← date2julian p year mon mday
  let (year, s) ← isoStart p year dayn
  let t ← chk32 p (dayn - s)
  let result ← chk32 p (tdiv t 7 + 1)
  if result ≥ 52 then do
    let y1 ← chk32 p (year + 1)
    let s ← isoWeek1 p y1
    if dayn ≥ s then pure y1 else pure year
  else pure year

/-! ## Truncation helpers (src/common.rs:141-280); state is `(tm, fsec)` -/

/-- Structure being truncated together with its microseconds. -/
abbrev TmF := PgTime × Int

/-- src/common.rs:160 `truncate_micro_sec`. -/
def truncMicroSec (s : TmF) : TmF := s
/-- src/common.rs:163-166 `truncate_milli_sec`. The product cannot leave `i64`. -/
def truncMilliSec (s : TmF) : TmF := truncMicroSec (s.1, tdiv s.2 1000 * 1000)
/-- src/common.rs:169-172 `truncate_sec`. -/
def truncSec (s : TmF) : TmF := truncMilliSec (s.1, 0)
/-- src/common.rs:175-178 `truncate_minute`. -/
def truncMinute (s : TmF) : TmF := truncSec ({ s.1 with sec := 0 }, s.2)
/-- src/common.rs:181-184 `truncate_hour`. -/
def truncHour (s : TmF) : TmF := truncMinute ({ s.1 with min := 0 }, s.2)
/-- src/common.rs:187-190 `truncate_day`. -/
def truncDay (s : TmF) : TmF := truncHour ({ s.1 with hour := 0 }, s.2)
/-- src/common.rs:193-196 `truncate_interval_month`. -/
def truncIntervalMonth (s : TmF) : TmF := truncDay ({ s.1 with mday := 0 }, s.2)
/-- src/common.rs:199-202 `truncate_timestamp_month`. -/
def truncTimestampMonth (s : TmF) : TmF := truncDay ({ s.1 with mday := 1 }, s.2)
/-- src/common.rs:205-208 `truncate_interval_quarter`. The product cannot leave `i32`. -/
def truncIntervalQuarter (s : TmF) : TmF :=
  truncIntervalMonth ({ s.1 with mon := 3 * tdiv s.1.mon 3 }, s.2)
/-- src/common.rs:211-214 `truncate_timestamp_quarter`. -/
def truncTimestampQuarter (p : Profile) (s : TmF) : Res TmF := do
  let t ← chk32 p (s.1.mon - 1)
  let m ← chk32 p (3 * tdiv t 3 + 1)
  pure (truncTimestampMonth ({ s.1 with mon := m }, s.2))
/-- src/common.rs:217-220 `truncate_interval_year`. -/
def truncIntervalYear (s : TmF) : TmF := truncIntervalQuarter ({ s.1 with mon := 0 }, s.2)
/-- src/common.rs:223-226 `truncate_timestamp_year`. -/
def truncTimestampYear (p : Profile) (s : TmF) : Res TmF :=
  truncTimestampQuarter p ({ s.1 with mon := 1 }, s.2)
/-- src/common.rs:229-232 `truncate_interval_decade`. The product cannot leave `i32`. -/
def truncIntervalDecade (s : TmF) : TmF :=
  truncIntervalYear ({ s.1 with year := tdiv s.1.year 10 * 10 }, s.2)
/-- src/common.rs:238-242: first year of the decade. -/
def decadeStart (p : Profile) (year : Int) : Res Int :=
  if year > 0 then .ok (tdiv year 10 * 10)
  else do
    let t ← chk32 p (year - 1)
    let t ← chk32 p (8 - t)
    let t ← chk32 p (-(tdiv t 10))
    chk32 p (t * 10)
/-- src/common.rs:235-244 `truncate_timestamp_decade`. -/
def truncTimestampDecade (p : Profile) (s : TmF) : Res TmF := do
  let y ← decadeStart p s.1.year
  truncTimestampYear p ({ s.1 with year := y }, s.2)
/-- src/common.rs:247-250 `truncate_interval_century`. -/
def truncIntervalCentury (s : TmF) : TmF :=
  truncIntervalDecade ({ s.1 with year := tdiv s.1.year 100 * 100 }, s.2)
/-- src/common.rs:255-259: first year of the century. -/
def centuryStart (p : Profile) (year : Int) : Res Int :=
  if year > 0 then do
    let t ← chk32 p (year + 99)
    chk32 p (tdiv t 100 * 100 - 99)
  else do
    let t ← chk32 p (year - 1)
    let t ← chk32 p (99 - t)
    let t ← chk32 p (-(tdiv t 100))
    let t ← chk32 p (t * 100)
    chk32 p (t + 1)
/-- src/common.rs:253-261 `truncate_timestamp_century`. -/
def truncTimestampCentury (p : Profile) (s : TmF) : Res TmF := do
  let y ← centuryStart p s.1.year
  truncTimestampYear p ({ s.1 with year := y }, s.2)
/-- src/common.rs:264-267 `truncate_interval_millennium`. -/
def truncIntervalMillennium (s : TmF) : TmF :=
  truncIntervalCentury ({ s.1 with year := tdiv s.1.year 1000 * 1000 }, s.2)
/-- src/common.rs:274-278: first year of the millennium. -/
def millenniumStart (p : Profile) (year : Int) : Res Int :=
  if year > 0 then do
    let t ← chk32 p (year + 999)
    chk32 p (tdiv t 1000 * 1000 - 999)
  else do
    let t ← chk32 p (year - 1)
    let t ← chk32 p (999 - t)
    let t ← chk32 p (-(tdiv t 1000))
    let t ← chk32 p (t * 1000)
    chk32 p (t + 1)
/-- src/common.rs:270-280 `truncate_timestamp_millennium`. -/
def truncTimestampMillennium (p : Profile) (s : TmF) : Res TmF := do
  let y ← millenniumStart p s.1.year
  truncTimestampCentury p ({ s.1 with year := y }, s.2)
/-- src/common.rs:146-151: the year adjustment of `truncate_timestamp_week`. -/
def weekYear (p : Profile) (woy mon year : Int) : Res Int :=
  if woy ≥ 52 ∧ mon = 1 then chk32 p (year - 1)
  else if woy ≤ 1 ∧ mon = MONTHS_PER_YEAR then chk32 p (year - 1)
  else .ok year
/-- src/common.rs:141-157 `truncate_timestamp_week`. Line 150 subtracts 1 from the year for
December dates of ISO week 1, exactly as the source does. -/
def truncTimestampWeek (p : Profile) (s : TmF) : Res TmF := do
  let woy ← dateToIsoWeek p s.1.year s.1.mon s.1.mday
  let y ← weekYear p woy s.1.mon s.1.year
  let tm ← isoWeekToDate p woy { s.1 with year := y }
  pure ({ tm with hour := 0, min := 0, sec := 0 }, 0)

end Pg
