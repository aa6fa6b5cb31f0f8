import Verif.Model.Types
import Verif.Model.Bytes
import Verif.Model.Styles

/-!
# Text output (src/common.rs, src/date.rs, src/time.rs, src/timestamp.rs, src/interval.rs)

Output goes into a 128-byte buffer with uninitialised content. The model keeps the buffer: its
initial content is a parameter, every write is an indexed write that panics outside the buffer,
and a call on `&mut s[offset..]` works on the tail of the buffer.
-/

namespace Pg

/-! ## Numbers -/

/-- Fuel of the digit loops: an `i32` has at most 10 digits. Running out would be a panic; it is
proved unreachable. -/
def digitFuel : Nat := 11

/-- src/common.rs:675-687: digits of a negative value, least significant first. The product cannot
leave `i32`, the digit cannot leave `i8`. -/
def negDigits : Nat → Bytes → Int → Nat → Res (Bytes × Nat)
  | 0, _, _, _ => .panic
  | n + 1, s, value, newStart => do
    let q := tdiv value 10
    let s ← setB s newStart (48 - (value - q * 10)).toNat
    if q = 0 then .ok (s, newStart) else negDigits n s q (newStart + 1)

/-- src/common.rs:690-699: digits of a non-negative value, least significant first. -/
def posDigits : Nat → Bytes → Int → Nat → Res (Bytes × Nat)
  | 0, _, _, _ => .panic
  | n + 1, s, value, newStart => do
    let q := tdiv value 10
    let s ← setB s newStart (48 + (value - q * 10)).toNat
    if q = 0 then .ok (s, newStart) else posDigits n s q (newStart + 1)

/-- `s.swap(i, j)`. -/
def swapB (s : Bytes) (i j : Nat) : Res Bytes :=
  match s[i]?, s[j]? with
  | some a, some b => .ok ((s.set i b).set j a)
  | _, _ => .panic

/-- src/common.rs:705-709: in-place reversal of `s[start..=newStart]`. -/
def revLoop (s : Bytes) (start : Nat) : Nat → Res Bytes
  | 0 => .ok s
  | e + 1 => if start < e + 1 then do
      let s ← swapB s start (e + 1)
      revLoop s (start + 1) e
    else .ok s

/-- src/common.rs:664-711 `pg_ltostr`: the buffer after the call and the end of the text. -/
def pgLtostr (value : Int) (s : Bytes) : Res (Bytes × Nat) :=
  if value < 0 then do
    let s ← setB s 0 45
    let (s, newStart) ← negDigits digitFuel s value 1
    let s ← revLoop s 1 newStart
    pure (s, newStart + 1)
  else do
    let (s, newStart) ← posDigits digitFuel s value 0
    let s ← revLoop s 0 newStart
    pure (s, newStart + 1)

/-- `u8` subtraction in profile `p`. -/
def chkU8 (p : Profile) (x : Int) : Res Int :=
  if 0 ≤ x ∧ x ≤ 255 then .ok x else match p with
    | .debug => .panic
    | .release => .ok (x % 256)

/-- src/common.rs:750-756: digits of a negative value from the last position down; here
`b'0' - remainder as u8` is `u8` arithmetic. `num`, the part not yet printed, is returned. -/
def negPad (p : Profile) : Nat → Bytes → Int → Res (Bytes × Int)
  | 0, s, num => .ok (s, num)
  | w + 1, s, num => do
    let q := tdiv num 10
    let c ← chkU8 p (48 - (num - q * 10) % 256)
    let s ← setB s (1 + w) c.toNat
    negPad p w s q

/-- src/common.rs:759-765: digits of a non-negative value from the last position down. -/
def posPad : Nat → Bytes → Int → Res (Bytes × Int)
  | 0, s, num => .ok (s, num)
  | w + 1, s, num => do
    let q := tdiv num 10
    let s ← setB s w (48 + (num - q * 10)).toNat
    posPad w s q

/-- src/common.rs:771-776: too narrow, print at minimum width instead. -/
def padRest (value num : Int) (width : Nat) (s : Bytes) : Res (Bytes × Nat) :=
  if num ≠ 0 then pgLtostr value s else .ok (s, width)

/-- src/common.rs:733-777 `pg_ltostr_zeropad`, for widths above 0 (the `debug_assert`; every
caller passes 2 or 4). -/
def pgLtostrZeropad (p : Profile) (value : Int) (width : Nat) (s : Bytes) : Res (Bytes × Nat) :=
  if value < 0 then do
    let s ← setB s 0 45
    let (s, num) ← negPad p (width - 1) s value
    padRest value num width s
  else do
    let (s, num) ← posPad width s value
    padRest value num width s

/-- `i32::abs` in profile `p`. -/
def abs32 (p : Profile) (x : Int) : Res Int := if x < 0 then chk32 p (-x) else .ok x
/-- `i64::abs` in profile `p`. -/
def abs64 (p : Profile) (x : Int) : Res Int := if x < 0 then chk64 p (-x) else .ok x

/-- src/common.rs:814-828: fraction digits from the last position down, zeros at the end skipped.
Returns the buffer, the part not printed and the number of digits written. -/
def fracLoop (offset : Nat) : Nat → Bytes → Int → Bool → Nat → Res (Bytes × Int × Nat)
  | 0, s, value, _, n => .ok (s, value, n)
  | k + 1, s, value, got, n =>
    let q := tdiv value 10
    let r := value - q * 10
    let got := got || r ≠ 0
    if got then do
      let s ← setB s (offset + k) (48 + r).toNat
      fracLoop offset k s q got (n + 1)
    else fracLoop offset k s q got n

/-- src/common.rs:797-801: the integral seconds. -/
def secInt (p : Profile) (sec : Int) (fill : Bool) (s : Bytes) : Res (Bytes × Nat) := do
  let a ← abs32 p sec
  if fill then pgLtostrZeropad p a 2 s else pgLtostr a s

/-- src/common.rs:833-837: end of `append_seconds`; the early return gives an offset relative to
the fraction, as in the source. -/
def fracRest (p : Profile) (fsec value : Int) (offset n : Nat) (s : Bytes) : Res (Bytes × Nat) :=
  if value ≠ 0 then do
    let a ← abs64 p fsec
    let (t, e) ← pgLtostr (wrap32 a) (s.drop offset)
    pure (s.take offset ++ t, e)
  else .ok (s, offset + n)

/-- src/common.rs:788-841 `append_seconds` with `precision = 6` (every caller). -/
def appendSeconds (p : Profile) (sec fsec : Int) (fill : Bool) (s : Bytes) : Res (Bytes × Nat) := do
  let (s, offset) ← secInt p sec fill s
  if fsec ≠ 0 then do
    let value ← abs64 p fsec
    let s ← setB s offset 46
    let (s, value, n) ← fracLoop (offset + 1) 6 s value false 0
    fracRest p fsec value (offset + 1) n s
  else .ok (s, offset)

/-! ## Output buffer -/

/-- Buffer and write offset. -/
abbrev Buf := Bytes × Nat

/-- `offset += f(&mut s[offset..])`. -/
def sub (f : Bytes → Res (Bytes × Nat)) (b : Buf) : Res Buf :=
  if b.2 ≤ b.1.length then do
    let (t, n) ← f (b.1.drop b.2)
    pure (b.1.take b.2 ++ t, b.2 + n)
  else .panic

/-- src/common.rs:31-35 `set_one_byte`. -/
def setOneByte (x : Nat) (b : Buf) : Res Buf := do
  let s ← setB b.1 b.2 x
  pure (s, b.2 + 1)

/-- src/common.rs:22-28 `copy_slice`. -/
def copySlice (src : Bytes) (b : Buf) : Res Buf :=
  if b.2 + src.length ≤ b.1.length then
    .ok (b.1.take b.2 ++ src ++ b.1.drop (b.2 + src.length), b.2 + src.length)
  else .panic

/-- `Vec::with_capacity(128)`, `set_len(128)`, formatting, `set_len(len)`; `junk` is the
uninitialised content. -/
def runFormat (junk : Bytes) (f : Buf → Res Buf) : Res Bytes := do
  let (s, len) ← f (junk, 0)
  pure (s.take len)

/-- src/common.rs:594-601 `get_month_name`. -/
def monthName (mon : Int) : Res Bytes :=
  if 1 ≤ mon then
    match ([b!"Jan", b!"Feb", b!"Mar", b!"Apr", b!"May", b!"Jun", b!"Jul", b!"Aug", b!"Sep",
      b!"Oct", b!"Nov", b!"Dec", b!"Unknow"] : List Bytes)[(mon - 1).toNat]? with
    | some v => .ok v
    | none => .panic
  else .panic

/-- src/common.rs:604-610 `get_wday_name`. -/
def wdayName (wday : Int) : Res Bytes :=
  if 0 ≤ wday then
    match ([b!"Sun", b!"Mon", b!"Tue", b!"Wed", b!"Thu", b!"Fri", b!"Sat", b!"unknow"] :
      List Bytes)[wday.toNat]? with
    | some v => .ok v
    | none => .panic
  else .panic

/-- `if tm.year > 0 { tm.year } else { -(tm.year - 1) }` (src/date.rs:309 and others). -/
def shownYear (p : Profile) (year : Int) : Res Int :=
  if year > 0 then .ok year
  else do
    let t ← chk32 p (year - 1)
    chk32 p (-t)

/-- The year with four digits or more. -/
def putYear (p : Profile) (year : Int) (b : Buf) : Res Buf := do
  let y ← shownYear p year
  sub (pgLtostrZeropad p y 4) b

/-- A number with two digits or more: `offset += pg_ltostr_zeropad(&mut s[offset..], v, 2)`. -/
def put2 (p : Profile) (v : Int) (b : Buf) : Res Buf := sub (pgLtostrZeropad p v 2) b

/-- src/date.rs:359-361, src/timestamp.rs:689-691: the era suffix. -/
def putEra (year : Int) (b : Buf) : Res Buf := if year ≤ 0 then copySlice b!" BC" b else .ok b

/-! ## Date -/

/-- src/date.rs:318-326 and 344-352, src/timestamp.rs:599-607: month and day in either order. -/
def putMonthDay (p : Profile) (tm : PgTime) (order : DateOrder) (sepD sepM : Nat) (b : Buf) :
    Res Buf :=
  if order = .dmy then do
    let b ← put2 p tm.mday b
    let b ← setOneByte sepD b
    put2 p tm.mon b
  else do
    let b ← put2 p tm.mon b
    let b ← setOneByte sepM b
    put2 p tm.mday b

/-- src/date.rs:306-357: the fields in the order of the style. -/
def putDate (p : Profile) (tm : PgTime) (order : DateOrder) (style : DateStyle) (b : Buf) :
    Res Buf :=
  match style with
  | .iso | .xsd => do
    let b ← putYear p tm.year b
    let b ← setOneByte 45 b
    let b ← put2 p tm.mon b
    let b ← setOneByte 45 b
    put2 p tm.mday b
  | .sql => do
    let b ← putMonthDay p tm order 47 47 b
    let b ← setOneByte 47 b
    putYear p tm.year b
  | .german => do
    let b ← put2 p tm.mday b
    let b ← setOneByte 46 b
    let b ← put2 p tm.mon b
    let b ← setOneByte 46 b
    putYear p tm.year b
  | .postgres => do
    let b ← putMonthDay p tm order 45 46 b
    let b ← setOneByte 46 b
    putYear p tm.year b

/-- src/date.rs:297-364 `format_date`. -/
def formatDate (p : Profile) (tm : PgTime) (style : DateStyle) (order : DateOrder) (b : Buf) :
    Res Buf := do
  let b ← putDate p tm order style b
  putEra tm.year b

/-- src/token.rs:28 `EARLY` and src/token.rs:29 `LATE`. -/
def EARLY : Bytes := b!"-infinity"
@[inherit_doc EARLY] def LATE : Bytes := b!"infinity"

/-- src/date.rs:255-293 `Date::format` and `format_special_date`. -/
def Date.format (p : Profile) (junk : Bytes) (d : Date) (style : DateStyle) (order : DateOrder) :
    Res Bytes :=
  if d.isInfinite then if d.v = i32Min then .ok EARLY else .ok LATE
  else do
    let c ← d.fields p
    runFormat junk (formatDate p (PgTime.new.setYmd c) style order)

/-! ## Time -/

/-- src/time.rs:196-215 `format_time`. -/
def formatTime (p : Profile) (tm : PgTime) (fsec : Int) (b : Buf) : Res Buf := do
  let b ← put2 p tm.hour b
  let b ← setOneByte 58 b
  let b ← put2 p tm.min b
  let b ← setOneByte 58 b
  sub (appendSeconds p tm.sec fsec true) b

/-- src/time.rs:134-145 `Time::format`; the style is not used. -/
def Time.format (p : Profile) (junk : Bytes) (t : Time) (_style : DateStyle) : Res Bytes := do
  let (tm, fsec) ← t.toPgtime p
  runFormat junk (formatTime p tm fsec)

/-! ## Timestamp -/

/-- src/timestamp.rs:587-591 and others: `hh:mm:ss[.f]`, as in `format_time`. -/
def putClock (p : Profile) (tm : PgTime) (fsec : Int) (b : Buf) : Res Buf := formatTime p tm fsec b

/-- src/timestamp.rs:649-659: day and month name in either order. -/
def putDayName (p : Profile) (tm : PgTime) (order : DateOrder) (b : Buf) : Res Buf :=
  if order = .dmy then do
    let b ← put2 p tm.mday b
    let b ← setOneByte 32 b
    let n ← monthName tm.mon
    copySlice n b
  else do
    let n ← monthName tm.mon
    let b ← copySlice n b
    let b ← setOneByte 32 b
    put2 p tm.mday b

/-- src/timestamp.rs:577-688: the fields in the order of the style. -/
def putDateTime (p : Profile) (tm : PgTime) (fsec : Int) (order : DateOrder) (style : DateStyle)
    (b : Buf) : Res Buf :=
  match style with
  | .iso => do
    let b ← putDate p tm order .iso b
    let b ← setOneByte 32 b
    putClock p tm fsec b
  | .xsd => do
    let b ← putDate p tm order .iso b
    let b ← setOneByte 84 b
    putClock p tm fsec b
  | .sql => do
    let b ← putDate p tm order .sql b
    let b ← setOneByte 32 b
    putClock p tm fsec b
  | .german => do
    let b ← putDate p tm order .german b
    let b ← setOneByte 32 b
    putClock p tm fsec b
  | .postgres => do
    let day ← date2julian p tm.year tm.mon tm.mday
    let wd ← julianToWeekDay p day
    let n ← wdayName wd
    let b ← copySlice n b
    let b ← setOneByte 32 b
    let b ← putDayName p tm order b
    let b ← setOneByte 32 b
    let b ← putClock p tm fsec b
    let b ← setOneByte 32 b
    putYear p tm.year b

/-- src/timestamp.rs:563-693 `format_date_time`. -/
def formatDateTime (p : Profile) (tm : PgTime) (order : DateOrder) (fsec : Int) (style : DateStyle)
    (b : Buf) : Res Buf := do
  let b ← putDateTime p tm fsec order style b
  putEra tm.year b

/-- src/timestamp.rs:193-220 `Timestamp::format` and 534-548 `format_special_timestamp`. -/
def Timestamp.format (p : Profile) (junk : Bytes) (t : Timestamp) (style : DateStyle)
    (order : DateOrder) : Res Bytes :=
  if t.isInfinite then if t.v = i64Min then .ok EARLY else .ok LATE
  else do
    let (tm, fsec) ← timestamp2time p t.v
    runFormat junk (formatDateTime p tm order fsec style)

/-! ## Interval -/

/-- The seven fields printed for an interval (src/interval.rs:629-634). -/
structure IvTm where
  year : Int
  mon : Int
  mday : Int
  hour : Int
  min : Int
  sec : Int
  fsec : Int
  deriving DecidableEq, Repr

/-- src/interval.rs:646-647 -/
def IvTm.hasNeg (x : IvTm) : Bool :=
  x.year < 0 || x.mon < 0 || x.mday < 0 || x.hour < 0 || x.min < 0 || x.sec < 0 || x.fsec < 0
/-- src/interval.rs:648-649 -/
def IvTm.hasPos (x : IvTm) : Bool :=
  x.year > 0 || x.mon > 0 || x.mday > 0 || x.hour > 0 || x.min > 0 || x.sec > 0 || x.fsec > 0
/-- src/interval.rs:650 -/
def IvTm.hasYearMonth (x : IvTm) : Bool := x.year ≠ 0 || x.mon ≠ 0
/-- src/interval.rs:651 -/
def IvTm.hasDayTime (x : IvTm) : Bool :=
  x.mday ≠ 0 || x.hour ≠ 0 || x.min ≠ 0 || x.sec ≠ 0 || x.fsec ≠ 0
/-- src/interval.rs:653-654 -/
def IvTm.sqlStandard (x : IvTm) : Bool :=
  !(x.hasNeg && x.hasPos || x.hasYearMonth && x.hasDayTime)
/-- Some clock field is negative (src/interval.rs:678 and 797). -/
def IvTm.clockNeg (x : IvTm) : Bool := x.hour < 0 || x.min < 0 || x.sec < 0 || x.fsec < 0
/-- Some clock field is nonzero (src/interval.rs:752 and 796). -/
def IvTm.clockNonzero (x : IvTm) : Bool := x.hour ≠ 0 || x.min ≠ 0 || x.sec ≠ 0 || x.fsec ≠ 0

/-- src/interval.rs:659-665: all fields negated. -/
def IvTm.neg (p : Profile) (x : IvTm) : Res IvTm := do
  let year ← chk32 p (-x.year)
  let mon ← chk32 p (-x.mon)
  let mday ← chk32 p (-x.mday)
  let hour ← chk32 p (-x.hour)
  let min ← chk32 p (-x.min)
  let sec ← chk32 p (-x.sec)
  let fsec ← chk64 p (-x.fsec)
  pure ⟨year, mon, mday, hour, min, sec, fsec⟩

/-- `offset += pg_ltostr(&mut s[offset..], v)`. -/
def putInt (v : Int) (b : Buf) : Res Buf := sub (pgLtostr v) b
/-- `offset += pg_ltostr(&mut s[offset..], v.abs())`. -/
def putAbs (p : Profile) (v : Int) (b : Buf) : Res Buf := do
  let a ← abs32 p v
  putInt a b
/-- `offset += pg_ltostr_zeropad(&mut s[offset..], v.abs(), 2)`. -/
def put2Abs (p : Profile) (v : Int) (b : Buf) : Res Buf := do
  let a ← abs32 p v
  put2 p a b
/-- `offset += append_seconds(&mut s[offset..], sec, fsec, 6, fill)`. -/
def putSec (p : Profile) (x : IvTm) (fill : Bool) (b : Buf) : Res Buf :=
  sub (appendSeconds p x.sec x.fsec fill) b

/-- src/interval.rs:676-704: SQL style with explicit signs. -/
def sqlMixed (p : Profile) (x : IvTm) (b : Buf) : Res Buf := do
  let b ← setOneByte (if x.year < 0 ∨ x.mon < 0 then 45 else 43) b
  let b ← putAbs p x.year b
  let b ← setOneByte 45 b
  let b ← putAbs p x.mon b
  let b ← setOneByte 32 b
  let b ← setOneByte (if x.mday < 0 then 45 else 43) b
  let b ← putAbs p x.mday b
  let b ← setOneByte 32 b
  let b ← setOneByte (if x.clockNeg then 45 else 43) b
  let b ← putAbs p x.hour b
  let b ← setOneByte 58 b
  let b ← put2Abs p x.min b
  let b ← setOneByte 58 b
  putSec p x true b

/-- src/interval.rs:713-724 and 726-737: `h:mm:ss` of the SQL style. -/
def sqlClock (p : Profile) (x : IvTm) (b : Buf) : Res Buf := do
  let b ← putInt x.hour b
  let b ← setOneByte 58 b
  let b ← put2 p x.min b
  let b ← setOneByte 58 b
  putSec p x true b

/-- src/interval.rs:668-738: SQL style after the sign. `x` has its signs already flipped when the
whole interval is negative; the flags are those of the original fields. -/
def sqlBody (p : Profile) (hasNeg hasPos std hasYM hasDay : Bool) (x : IvTm) (b : Buf) : Res Buf :=
  if !hasNeg && !hasPos then setOneByte 48 b
  else if !std then sqlMixed p x b
  else if hasYM then do
    let b ← putInt x.year b
    let b ← setOneByte 45 b
    putInt x.mon b
  else if hasDay then do
    let b ← putInt x.mday b
    let b ← setOneByte 32 b
    sqlClock p x b
  else sqlClock p x b

/-- src/interval.rs:645-739: SQL standard style. -/
def putSql (p : Profile) (x : IvTm) (b : Buf) : Res Buf :=
  if x.hasNeg && x.sqlStandard then do
    let b ← setOneByte 45 b
    let y ← x.neg p
    sqlBody p x.hasNeg x.hasPos x.sqlStandard x.hasYearMonth (x.mday ≠ 0) y b
  else sqlBody p x.hasNeg x.hasPos x.sqlStandard x.hasYearMonth (x.mday ≠ 0) x b

/-- src/interval.rs:887-896 `add_iso8601_int_part`. -/
def isoPart (v : Int) (unit : Nat) (b : Buf) : Res Buf :=
  if v = 0 then .ok b
  else do
    let b ← putInt v b
    setOneByte unit b

/-- src/interval.rs:752-754: `T` before the clock fields. -/
def isoT (x : IvTm) (b : Buf) : Res Buf := if x.clockNonzero then setOneByte 84 b else .ok b

/-- src/interval.rs:758-760: the sign of the seconds. -/
def isoSecSign (x : IvTm) (b : Buf) : Res Buf :=
  if x.sec < 0 ∨ x.fsec < 0 then setOneByte 45 b else .ok b

/-- src/interval.rs:757-772: the seconds. -/
def isoSec (p : Profile) (x : IvTm) (b : Buf) : Res Buf :=
  if x.sec ≠ 0 ∨ x.fsec ≠ 0 then do
    let b ← isoSecSign x b
    let b ← putSec p x false b
    setOneByte 83 b
  else .ok b

/-- src/interval.rs:741-773: ISO 8601 style. -/
def putIso (p : Profile) (x : IvTm) (b : Buf) : Res Buf :=
  if x.year = 0 ∧ x.mon = 0 ∧ x.mday = 0 ∧ x.hour = 0 ∧ x.min = 0 ∧ x.sec = 0 ∧ x.fsec = 0 then
    copySlice b!"PT0S" b
  else do
    let b ← setOneByte 80 b
    let b ← isoPart x.year 89 b
    let b ← isoPart x.mon 77 b
    let b ← isoPart x.mday 68 b
    let b ← isoT x b
    let b ← isoPart x.hour 72 b
    let b ← isoPart x.min 77 b
    isoSec p x b

/-- `if c { offset = set_one_byte(s, offset, x) }`. -/
def putIf (c : Bool) (x : Nat) (b : Buf) : Res Buf := if c then setOneByte x b else .ok b

/-- `if c { offset = copy_slice(s, offset, x) }`. -/
def copyIf (c : Bool) (x : Bytes) (b : Buf) : Res Buf := if c then copySlice x b else .ok b

/-- src/interval.rs:900-931 `add_postgres_int_part`; `(is_zero, is_before)` is threaded. -/
def pgPart (v : Int) (units : Bytes) (z : Bool × Bool) (b : Buf) : Res ((Bool × Bool) × Buf) :=
  if v = 0 then .ok (z, b)
  else do
    let b ← putIf (!z.1) 32 b
    let b ← putIf (z.2 && v > 0) 43 b
    let b ← putInt v b
    let b ← setOneByte 32 b
    let b ← copySlice units b
    let b ← putIf (v ≠ 1) 115 b
    pure ((false, v < 0), b)

/-- src/interval.rs:796-821: the clock of the Postgres style. -/
def pgClock (p : Profile) (x : IvTm) (z : Bool × Bool) (b : Buf) : Res Buf :=
  if z.1 || x.clockNonzero then do
    let b ← putIf (!z.1) 32 b
    let b ← putIf x.clockNeg 45 b
    let b ← putIf (!x.clockNeg && z.2) 43 b
    let b ← put2Abs p x.hour b
    let b ← setOneByte 58 b
    let b ← put2Abs p x.min b
    let b ← setOneByte 58 b
    putSec p x true b
  else .ok b

/-- src/interval.rs:775-822: Postgres style. -/
def putPg (p : Profile) (x : IvTm) (b : Buf) : Res Buf := do
  let (z, b) ← pgPart x.year b!"year" (true, false) b
  let (z, b) ← pgPart x.mon b!"mon" z b
  let (z, b) ← pgPart x.mday b!"day" z b
  pgClock p x z b

/-- src/interval.rs:949-956: the value, with its sign relative to the first field. -/
def verboseValue (p : Profile) (v : Int) (z : Bool × Bool) (b : Buf) : Res Buf :=
  if z.1 then putAbs p v b
  else if z.2 then do
    let n ← chk32 p (-v)
    putInt n b
  else putInt v b

/-- src/interval.rs:934-965 `add_verbose_int_part`. -/
def verbosePart (p : Profile) (v : Int) (units : Bytes) (z : Bool × Bool) (b : Buf) :
    Res ((Bool × Bool) × Buf) :=
  if v = 0 then .ok (z, b)
  else do
    let b ← setOneByte 32 b
    let b ← verboseValue p v z b
    let b ← setOneByte 32 b
    let b ← copySlice units b
    let b ← putIf (v ≠ 1) 115 b
    pure ((false, if z.1 then decide (v < 0) else z.2), b)

/-- The seconds are negative (src/interval.rs:848). -/
def IvTm.secNeg (x : IvTm) : Bool := x.sec < 0 || (x.sec = 0 && x.fsec < 0)

/-- src/interval.rs:846-870: the seconds of the verbose style; returns the updated flags. -/
def verboseSec (p : Profile) (x : IvTm) (z : Bool × Bool) (b : Buf) : Res ((Bool × Bool) × Buf) :=
  if x.sec ≠ 0 ∨ x.fsec ≠ 0 then do
    let b ← setOneByte 32 b
    let b ← putIf (if x.secNeg then !z.1 && !z.2 else z.2) 45 b
    let b ← putSec p x false b
    let b ← copySlice b!" sec" b
    let a ← abs32 p x.sec
    let b ← putIf (a ≠ 1 || x.fsec ≠ 0) 115 b
    pure ((false, if x.secNeg && z.1 then true else z.2), b)
  else .ok (z, b)

/-- src/interval.rs:824-880: verbose style. -/
def putVerbose (p : Profile) (x : IvTm) (b : Buf) : Res Buf := do
  let b ← setOneByte 64 b
  let (z, b) ← verbosePart p x.year b!"year" (true, false) b
  let (z, b) ← verbosePart p x.mon b!"mon" z b
  let (z, b) ← verbosePart p x.mday b!"day" z b
  let (z, b) ← verbosePart p x.hour b!"hour" z b
  let (z, b) ← verbosePart p x.min b!"min" z b
  let (z, b) ← verboseSec p x z b
  let b ← copyIf z.1 b!" 0" b
  copyIf z.2 b!" ago" b

/-- src/interval.rs:623-882 `format_interval`. -/
def formatInterval (p : Profile) (x : IvTm) (style : IntervalStyle) (b : Buf) : Res Buf :=
  match style with
  | .sqlStandard => putSql p x b
  | .iso8601 => putIso p x b
  | .postgres => putPg p x b
  | .verbose => putVerbose p x b

/-- The fields handed to `format_interval`. -/
def IvTm.of (s : PgTime × Int) : IvTm :=
  ⟨s.1.year, s.1.mon, s.1.mday, s.1.hour, s.1.min, s.1.sec, s.2⟩

/-- src/interval.rs:588-603 `Interval::format`. -/
def Interval.format (p : Profile) (junk : Bytes) (a : Interval) (style : IntervalStyle) :
    Res Bytes := do
  let s ← a.toPgtime p
  runFormat junk (formatInterval p (IvTm.of s) style)

end Pg
