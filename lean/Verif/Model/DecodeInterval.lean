import Verif.Model.Decode

/-!
# Decoding intervals from fields

src/parse.rs:2417-3241: `decode_interval` and `decode_iso8601_interval`.
-/

namespace Pg

/-- `f64::floor`. -/
def F64.floor : F64 → F64
  | .fin x => .fin x.floor
  | v => v

/-- src/parse.rs:2420-2440 `adjust_fract_seconds`, on `tm` and `fsec`. -/
def adjustFractSeconds (p : Profile) (frac : F64) (scale : Int) : St TmF Unit :=
  if frac = .fin 0 then pure ()
  else do
    let frac := frac.mul (F64.ofInt scale)
    let sec := frac.toI32
    let s ← St.get
    match checked32 (s.1.sec + sec) with
    | none => St.fail .overflow
    | some v => do
      St.mod fun s => ({ s.1 with sec := v }, s.2)
      let f ← St.lift (chk64 p (s.2 + roundMicros (frac.sub (F64.ofInt sec))))
      St.mod fun s => (s.1, f)

/-- src/parse.rs:2444-2464 `adjust_fract_days`, on `tm` and `fsec`. -/
def adjustFractDays (p : Profile) (frac : F64) (scale : Int) : St TmF Unit :=
  if frac = .fin 0 then pure ()
  else do
    let frac := frac.mul (F64.ofInt scale)
    let days := frac.toI32
    let s ← St.get
    match checked32 (s.1.mday + days) with
    | none => St.fail .overflow
    | some v => do
      St.mod fun s => ({ s.1 with mday := v }, s.2)
      adjustFractSeconds p (frac.sub (F64.ofInt days)) SECS_PER_DAY

/-- `*fsec += x` -/
def addFsec (p : Profile) (x : Int) : St TmF Unit := do
  let s ← St.get
  let f ← St.lift (chk64 p (s.2 + x))
  St.mod fun s => (s.1, f)
/-- `tm.sec += x` -/
def addSec (p : Profile) (x : Int) : St TmF Unit := do
  let s ← St.get
  let f ← St.lift (chk32 p (s.1.sec + x))
  St.mod fun s => ({ s.1 with sec := f }, s.2)
/-- `tm.min += x` -/
def addMin (p : Profile) (x : Int) : St TmF Unit := do
  let s ← St.get
  let f ← St.lift (chk32 p (s.1.min + x))
  St.mod fun s => ({ s.1 with min := f }, s.2)
/-- `tm.hour += x` -/
def addHour (p : Profile) (x : Int) : St TmF Unit := do
  let s ← St.get
  let f ← St.lift (chk32 p (s.1.hour + x))
  St.mod fun s => ({ s.1 with hour := f }, s.2)
/-- `tm.mday += x` -/
def addMday (p : Profile) (x : Int) : St TmF Unit := do
  let s ← St.get
  let f ← St.lift (chk32 p (s.1.mday + x))
  St.mod fun s => ({ s.1 with mday := f }, s.2)
/-- `tm.mon += x` -/
def addMon (p : Profile) (x : Int) : St TmF Unit := do
  let s ← St.get
  let f ← St.lift (chk32 p (s.1.mon + x))
  St.mod fun s => ({ s.1 with mon := f }, s.2)
/-- `tm.year += x` -/
def addYear (p : Profile) (x : Int) : St TmF Unit := do
  let s ← St.get
  let f ← St.lift (chk32 p (s.1.year + x))
  St.mod fun s => ({ s.1 with year := f }, s.2)

/-- Local variables of `decode_interval` and its `&mut` arguments; `t` is `tm` with `f_sec`. -/
structure IvS where
  t : TmF := ({}, 0)
  dType : TokenField := .delta
  fMask : Nat := 0
  tMask : Nat := 0
  ty : Int := 8
  fVal : F64 := .fin 0
  before : Bool := false
  deriving DecidableEq, Repr

/-- A call with `tm` and `f_sec`. -/
def onTm {α : Type} (m : St TmF α) : St IvS α :=
  St.zoom (fun s => s.t) (fun t s => { s with t := t }) m

/-- src/parse.rs:2475-2500: the unit of a number without unit, from the interval's range; src/interval.rs
lines 26 to 43 for the ranges. -/
def rangeUnit (range : Nat) : TokenField :=
  if range = 4 then .year
  else if range = 2 ∨ range = 6 then .month
  else if range = 8 then .day
  else if range = 1024 ∨ range = 1032 then .hour
  else if range = 2048 ∨ range = 3072 ∨ range = 3080 then .minute
  else .second

/-- `if field[0] == b'-' { val2 = -val2 }` -/
def signMonths (p : Profile) (neg : Bool) (val2 : Int) : Res Int :=
  if neg then chk32 p (-val2) else .ok val2

/-- src/parse.rs:2504-2528: SQL `years-months`; `s` follows the `-`. Returns the number of months. -/
def yearMonth (p : Profile) (neg : Bool) (val : Int) (s : Bytes) : Res Int := do
  let (val2, s) ← str2i32 s
  if val2 < 0 ∨ val2 ≥ MONTHS_PER_YEAR then .err .overflow
  else if ¬ s.isEmpty then .err .invalid
  else do
    let val2 ← signMonths p neg val2
    let m := ((F64.ofInt val).mul (F64.ofInt MONTHS_PER_YEAR)).add (F64.ofInt val2)
    if (F64.ofInt i32Max).lt m ∨ m.lt (F64.ofInt i32Min) then .err .overflow
    else do
      let v ← chk32 p (val * MONTHS_PER_YEAR)
      chk32 p (v + val2)

/-- src/parse.rs:2502-2545: the value of a number and its fraction; for `years-months` the unit becomes
months. Returns value, fraction, and whether the unit was changed. -/
def numberParts (p : Profile) (field : Bytes) : Res (Int × F64 × Bool) := do
  let (val, s) ← str2i32 field
  let neg : Bool := field.head? = some 45
  match s with
  | [] => .ok (val, .fin 0, false)
  | c :: r =>
    if c = 45 then do
      let v ← yearMonth p neg val r
      .ok (v, .fin 0, true)
    else if c = 46 then do
      let (v, s) ← str2d s
      if ¬ s.isEmpty then .err .invalid
      else .ok (val, if neg then v.neg else v, false)
    else .err .invalid

/-- `val`, `val * 10`, `val * 100` or `val * 1000` -/
def scaleYears (p : Profile) (val n : Int) : Res Int := if n = 1 then .ok val else chk32 p (val * n)

/-- src/parse.rs:2606-2636: add `val` times `n` years, the fraction in whole months. -/
def addYears (p : Profile) (val : Int) (fVal : F64) (n : Int) : St TmF Unit := do
  let v ← St.lift (scaleYears p val n)
  addYear p v
  if fVal = .fin 0 then pure ()
  else
    let f := fVal.mul (F64.ofInt MONTHS_PER_YEAR)
    addMon p (if n = 1 then f else f.mul (F64.ofInt n)).toI32

/-- src/parse.rs:2549-2644: add a number with its unit. Returns the mask of the unit. -/
def addUnit (p : Profile) (unit : TokenField) (val : Int) (fVal : F64) : St TmF Nat :=
  match unit with
  | .microsec => do
    addFsec p (((F64.ofInt val).add fVal).round).toI64
    pure 16384
  | .millisec => do
    addSec p (tdiv val 1000)
    let v := val - tdiv val 1000 * 1000
    addFsec p ((((F64.ofInt v).add fVal).mul (.fin 1000)).round).toI64
    pure 8192
  | .second => do
    addSec p val
    addFsec p (roundMicros fVal)
    pure (if fVal = .fin 0 then SECOND_M else DTK_ALL_SECS_M)
  | .minute => do
    addMin p val
    adjustFractSeconds p fVal SECS_PER_MINUTE
    pure MINUTE_M
  | .hour => do
    addHour p val
    adjustFractSeconds p fVal SECS_PER_HOUR
    pure HOUR_M
  | .day => do
    addMday p val
    adjustFractSeconds p fVal SECS_PER_DAY
    pure DTK_DAY_M
  | .week => do
    let v ← St.lift (chk32 p (val * 7))
    addMday p v
    adjustFractDays p fVal 7
    pure 16777216
  | .month => do
    addMon p val
    adjustFractDays p fVal DAYS_PER_MONTH
    pure DTK_MONTH_M
  | .year => do
    addYears p val fVal 1
    pure DTK_YEAR_M
  | .decade => do
    addYears p val fVal 10
    pure 33554432
  | .century => do
    addYears p val fVal 100
    pure 67108864
  | .millennium => do
    addYears p val fVal 1000
    pure 134217728
  | _ => St.fail .invalid

/-- src/parse.rs:2466-2646 `decode_interval_number_field`. -/
def intervalNumber (p : Profile) (field : Bytes) (range : Nat) : St IvS Unit := do
  St.mod fun s => if s.ty = 8 then { s with ty := (rangeUnit range).value } else s
  let (val, fVal, months) ← St.lift (numberParts p field)
  St.mod fun s => { s with fVal := fVal, tMask := 0, ty := if months then TokenField.month.value else s.ty }
  let s ← St.get
  let unit ← St.lift (TokenField.ofInt s.ty)
  let m ← onTm (addUnit p unit val fVal)
  St.mod fun s => { s with tMask := m, ty := if unit = .hour then TokenField.day.value else s.ty }

/-- `decode_time` called with `&mut t_mask`, `tm`, `f_sec`. -/
def onTimeI {α : Type} (m : St TimeS α) : St IvS α :=
  St.zoom (fun s => ⟨s.tMask, s.t.1, s.t.2⟩)
    (fun n s => { s with tMask := n.tMask, t := (n.tm, n.fsec) }) m

/-- src/parse.rs:2738-2744: flip the sign of the clock fields. -/
def flipTime (p : Profile) : St TmF Unit := do
  let s ← St.get
  let h ← St.lift (chk32 p (-s.1.hour))
  let m ← St.lift (chk32 p (-s.1.min))
  let c ← St.lift (chk32 p (-s.1.sec))
  let f ← St.lift (chk64 p (-s.2))
  St.mod fun s => ({ s.1 with hour := h, min := m, sec := c }, f)

/-- src/parse.rs:2725-2762: a field that starts with a sign and a digit. -/
def intervalSigned (p : Profile) (field : Bytes) (range : Nat) : St IvS Unit :=
  if field.any fun b => b = 58 then do
    onTimeI (decodeTime (field.drop 1) range)
    if field.head? = some 45 then onTm (flipTime p) else pure ()
    St.mod fun s => { s with ty := TokenField.day.value }
  else intervalNumber p field range

/-- src/parse.rs:2780-2799: a unit, `ago`, or a reserved word. -/
def intervalWord (ty : TokenType) (val : Int) : St IvS Unit := do
  St.mod fun s => { s with tMask := 0 }
  match ty with
  | .units => St.mod fun s => { s with ty := val }
  | .ago => St.mod fun s => { s with before := true, ty := val }
  | .reserv => do
    St.mod fun s => { s with tMask := DTK_DATE_M ||| DTK_TIME_M }
    let f ← St.lift (TokenField.ofInt val)
    St.mod fun s => { s with dType := f }
  | _ => St.fail .invalid

/-- src/parse.rs:1159-1168 `check_mask_set`, and (2809-2810) the update of `f_mask`. -/
def addMaskI : St IvS Unit := do
  let d ← St.get
  if d.tMask &&& d.fMask ≠ 0 then St.fail .invalid
  else St.mod fun d => { d with fMask := d.fMask ||| d.tMask }

/-- src/parse.rs:2716-2810: one field of `decode_interval`. -/
def intervalField {C : Type} (p : Profile) (L : Look C) (range : Nat) (i : Nat) (f : Field) :
    St (IvS × C) Unit :=
  match f.1 with
  | .time => noLook do
      onTimeI (decodeTime f.2 range)
      St.mod fun s => { s with ty := TokenField.day.value }
      addMaskI
  | .tz => noLook do intervalSigned p f.2 range; addMaskI
  | .date | .number => noLook do intervalNumber p f.2 range; addMaskI
  | .string | .special => do
    let (ty, val) ← lookDelta L i f.2
    if ty = .ignoreDtf then pure ()
    else noLook do intervalWord ty val; addMaskI
  | _ => St.fail .invalid

/-- src/parse.rs:2715-2811: the loop of `decode_interval`, from the last field to the first: the fields
after `f` are decoded first. `i` is the position of the first field of the list. -/
def intervalLoop {C : Type} (p : Profile) (L : Look C) (range : Nat) :
    List Field → Nat → St (IvS × C) Unit
  | [], _ => pure ()
  | f :: fs, i => do
    intervalLoop p L range fs (i + 1)
    intervalField p L range i f

/-- src/parse.rs:2816-2821: carry whole seconds out of the fraction. -/
def carryFsec (p : Profile) : St TmF Unit := do
  let s ← St.get
  if s.2 ≠ 0 then do
    let sec := tdiv s.2 USECS_PER_SEC
    St.mod fun s => (s.1, s.2 - sec * USECS_PER_SEC)
    addSec p (wrap32 sec)
  else pure ()

/-- `if x > 0 { x = -x }` -/
def negPos (x : Int) : Int := if x > 0 then -x else x

/-- src/parse.rs:2850-2870: make all fields negative. -/
def forceNegative (s : TmF) : TmF :=
  ({ s.1 with sec := negPos s.1.sec, min := negPos s.1.min, hour := negPos s.1.hour,
              mday := negPos s.1.mday, mon := negPos s.1.mon, year := negPos s.1.year }, negPos s.2)

/-- A leading sign: src/parse.rs:2841. -/
def hasSign (b : Bytes) : Bool := b.head? = some 45 || b.head? = some 43

/-- src/parse.rs:2836-2872: in the SQL style a leading minus without further signs holds for all fields. -/
def sqlSign (style : IntervalStyle) (fields : List Field) : St TmF Unit :=
  match fields with
  | [] => St.panic
  | f :: fs =>
    if style = .sqlStandard then
      match f.2 with
      | [] => St.panic
      | c :: _ =>
        if c = 45 ∧ ¬ (fs.any fun g => hasSign g.2) then St.mod forceNegative else pure ()
    else pure ()

/-- src/parse.rs:2874-2883: `ago` negates everything. -/
def negateAll (p : Profile) : St TmF Unit := do
  let s ← St.get
  let f ← St.lift (chk64 p (-s.2))
  let a ← St.lift (chk32 p (-s.1.sec))
  let b ← St.lift (chk32 p (-s.1.min))
  let c ← St.lift (chk32 p (-s.1.hour))
  let d ← St.lift (chk32 p (-s.1.mday))
  let e ← St.lift (chk32 p (-s.1.mon))
  let g ← St.lift (chk32 p (-s.1.year))
  St.mod fun s => ({ s.1 with sec := a, min := b, hour := c, mday := d, mon := e, year := g }, f)

/-- src/parse.rs:2696-2886 `decode_interval`. -/
def decodeInterval {C : Type} (p : Profile) (L : Look C) (range : Nat) (style : IntervalStyle)
    (fields : List Field) : St (IvS × C) Unit := do
  intervalLoop p L range fields 0
  noLook do
    let s ← St.get
    if s.fMask = 0 then St.fail .invalid
    else do
      onTm (carryFsec p)
      onTm (sqlSign style fields)
      let s ← St.get
      if s.before then onTm (negateAll p) else pure ()

/-- src/parse.rs:2918-2928: integer part and fraction. -/
def isoSplit (val : F64) : Res (Int × F64) :=
  if val.lt (F64.ofInt i32Min) ∨ (F64.ofInt i32Max).lt val then .err .overflow
  else
    let i := if val.ge (.fin 0) then val.floor.toI32 else val.floor.neg.toI32
    .ok (i, val.sub (F64.ofInt i))

/-- src/parse.rs:2893-2930 `parse_iso8601_number`: integer part, fraction and rest. -/
def parseIsoNumber (s : Bytes) : Res (Int × F64 × Bytes) :=
  match s with
  | [] => .err .invalid
  | c :: _ =>
    if ¬ (isDigit c ∨ c = 99 ∨ c = 46) then .err .invalid
    else do
      let (val, rest) ← str2d s
      if rest.length = s.length then .err .invalid
      else do
        let (i, f) ← isoSplit val
        .ok (i, f, rest)

/-- src/parse.rs:2935-2944 `iso8601_integer_width`. -/
def isoWidth (s : Bytes) : Nat :=
  match s with
  | 45 :: r => (r.takeWhile isDigit).length
  | _ => (s.takeWhile isDigit).length

/-- Variables of `decode_iso8601_interval`. -/
structure IsoS where
  t : TmF
  datePart : Bool := true
  haveField : Bool := false
  deriving DecidableEq, Repr

/-- A call with `tm` and `fsec`. -/
def onTmIso {α : Type} (m : St TmF α) : St IsoS α :=
  St.zoom (fun s => s.t) (fun t s => { s with t := t }) m

/-- What the loop does after one number: return, go on (`continue`), or note a field and go on. -/
inductive IsoStep where
  | done
  | again (s : Bytes)
  | field (s : Bytes)
  deriving DecidableEq, Repr

/-- `datepart = false; havefield = false;` -/
def isoTimePart : St IsoS Unit := St.mod fun s => { s with datePart := false, haveField := false }

/-- `tm.mon += (fval * 12.0) as i32` -/
def addYearFrac (p : Profile) (fVal : F64) : St TmF Unit :=
  addMon p ((fVal.mul (F64.ofInt MONTHS_PER_YEAR)).toI32)

/-- src/parse.rs:2997-3015: the day of `yyyy-mm-dd`. -/
def isoDatePart3 (p : Profile) (s : Bytes) : St IsoS IsoStep := do
  let (val, fVal, s) ← St.lift (parseIsoNumber s)
  onTmIso (addMday p val)
  onTmIso (adjustFractSeconds p fVal SECS_PER_DAY)
  match s with
  | [] => pure .done
  | c :: _ =>
    if c = 84 then do isoTimePart; pure (.again s) else St.fail .invalid

/-- src/parse.rs:2977-2995: the month of `yyyy-mm-dd`. -/
def isoDatePart2 (p : Profile) (s : Bytes) : St IsoS IsoStep := do
  let (val, fVal, s) ← St.lift (parseIsoNumber s)
  onTmIso (addMon p val)
  onTmIso (adjustFractDays p fVal DAYS_PER_MONTH)
  match s with
  | [] => pure .done
  | c :: r =>
    if c = 84 then do isoTimePart; pure (.again s)
    else if c = 45 then isoDatePart3 p r
    else St.fail .invalid

/-- src/parse.rs:2947-3016 `decode_date_part_left`. -/
def isoDateLeft (p : Profile) (s : Bytes) (unit : Nat) (val : Int) (fVal : F64) : St IsoS IsoStep := do
  let st ← St.get
  if st.haveField then St.fail .invalid
  else do
    onTmIso (addYear p val)
    onTmIso (addYearFrac p fVal)
    if unit = 0 then pure .done
    else if unit = 84 then do isoTimePart; pure (.again s)
    else isoDatePart2 p s

/-- src/parse.rs:3123-3186: a number in the date part, by the byte after it (0 at the end). -/
def isoDate (p : Profile) (start s : Bytes) (unit : Nat) (val : Int) (fVal : F64) : St IsoS IsoStep :=
  if unit = 89 then do
    onTmIso (addYear p val)
    onTmIso (addYearFrac p fVal)
    pure (.field s)
  else if unit = 77 then do
    onTmIso (addMon p val)
    onTmIso (adjustFractDays p fVal DAYS_PER_MONTH)
    pure (.field s)
  else if unit = 87 then do
    let v ← St.lift (chk32 p (val * 7))
    onTmIso (addMday p v)
    onTmIso (adjustFractDays p fVal 7)
    pure (.field s)
  else if unit = 68 then do
    onTmIso (addMday p val)
    onTmIso (adjustFractSeconds p fVal SECS_PER_DAY)
    pure (.field s)
  else if unit = 84 ∨ unit = 0 then do
    let st ← St.get
    if isoWidth start = 8 ∧ st.haveField = false then do
      onTmIso (addYear p (tdiv val 10000))
      onTmIso (addMon p (tmod (tdiv val 100) 100))
      onTmIso (addMday p (tmod val 100))
      onTmIso (adjustFractSeconds p fVal SECS_PER_DAY)
      if unit = 0 then pure .done
      else do isoTimePart; pure (.again s)
    else isoDateLeft p s unit val fVal
  else if unit = 45 then isoDateLeft p s unit val fVal
  else St.fail .invalid

/-- src/parse.rs:3052-3062: the seconds of `hh:mm:ss`. -/
def isoTimePart3 (p : Profile) (s : Bytes) : St IsoS IsoStep := do
  let (val, fVal, s) ← St.lift (parseIsoNumber s)
  onTmIso (addSec p val)
  onTmIso (adjustFractSeconds p fVal 1)
  if s.isEmpty then pure .done else St.fail .invalid

/-- src/parse.rs:3038-3051: the minutes of `hh:mm:ss`. -/
def isoTimePart2 (p : Profile) (s : Bytes) : St IsoS IsoStep := do
  let (val, fVal, s) ← St.lift (parseIsoNumber s)
  onTmIso (addMin p val)
  onTmIso (adjustFractSeconds p fVal SECS_PER_MINUTE)
  match s with
  | [] => pure .done
  | c :: r => if c = 58 then isoTimePart3 p r else St.fail .invalid

/-- src/parse.rs:3019-3063 `decode_time_part_left`. -/
def isoTimeLeft (p : Profile) (s : Bytes) (unit : Nat) (val : Int) (fVal : F64) : St IsoS IsoStep := do
  let st ← St.get
  if st.haveField then St.fail .invalid
  else do
    onTmIso (addHour p val)
    onTmIso (adjustFractSeconds p fVal SECS_PER_HOUR)
    if unit = 0 then pure .done else isoTimePart2 p s

/-- src/parse.rs:3187-3235: a number in the time part, by the byte after it (0 at the end). -/
def isoTime (p : Profile) (start s : Bytes) (unit : Nat) (val : Int) (fVal : F64) : St IsoS IsoStep :=
  if unit = 72 then do
    onTmIso (addHour p val)
    onTmIso (adjustFractSeconds p fVal SECS_PER_HOUR)
    pure (.field s)
  else if unit = 77 then do
    onTmIso (addMin p val)
    onTmIso (adjustFractSeconds p fVal SECS_PER_MINUTE)
    pure (.field s)
  else if unit = 83 then do
    onTmIso (addSec p val)
    onTmIso (adjustFractSeconds p fVal 1)
    pure (.field s)
  else if unit = 0 then do
    let st ← St.get
    if isoWidth start = 6 ∧ st.haveField = false then do
      onTmIso (addHour p (tdiv val 10000))
      onTmIso (addMin p (tmod (tdiv val 100) 100))
      onTmIso (addSec p (tmod val 100))
      onTmIso (adjustFractSeconds p fVal 1)
      pure .done
    else isoTimeLeft p s unit val fVal
  else if unit = 58 then isoTimeLeft p s unit val fVal
  else St.fail .invalid

/-- src/parse.rs:3123-3235: a number in the date part or in the time part. -/
def isoNumber (p : Profile) (start s : Bytes) (unit : Nat) (val : Int) (fVal : F64) :
    St IsoS IsoStep := do
  let st ← St.get
  if st.datePart then isoDate p start s unit val fVal else isoTime p start s unit val fVal

/-- src/parse.rs:3114-3122: the byte after a number (0 at the end of the text) and what follows. -/
def isoUnit (s : Bytes) : Nat × Bytes :=
  match s with
  | [] => (0, [])
  | u :: r => (u, r)

/-- src/parse.rs:3099-3240: the loop of `decode_iso8601_interval`. -/
def isoLoop (p : Profile) : Nat → Bytes → St IsoS Unit
  | 0, _ => pure ()
  | fuel + 1, s =>
    match s with
    | [] => pure ()
    | c :: r =>
      if c = 84 then do
        isoTimePart
        isoLoop p fuel r
      else do
        let (val, fVal, rest) ← St.lift (parseIsoNumber s)
        let step ← isoNumber p s (isoUnit rest).2 (isoUnit rest).1 val fVal
        match step with
        | .done => pure ()
        | .again rest => isoLoop p fuel rest
        | .field rest => do
          St.mod fun s => { s with haveField := true }
          isoLoop p fuel rest

/-- src/parse.rs:3080-3241 `decode_iso8601_interval`, on `tm`, `fsec` and `d_type`. -/
def decodeIsoInterval (p : Profile) (s : Bytes) : St IvS Unit := do
  St.mod fun t => { t with dType := .delta, t := (t.t.1, 0) }
  if s.length < 2 ∨ s.head? ≠ some 80 then St.fail .invalid
  else
    St.zoom (fun (t : IvS) => ({ t := t.t } : IsoS)) (fun i t => { t with t := i.t })
      (isoLoop p (s.length + 1) (s.drop 1))

end Pg
