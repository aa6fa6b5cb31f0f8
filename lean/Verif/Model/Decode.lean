import Verif.Model.Scan
import Verif.Model.Types
import Verif.Model.Styles
import Verif.Model.F64

/-!
# Decoding dates, times and timestamps from fields

src/parse.rs:399-1048 and 1157-2415. A function that takes `&mut` arguments is a state transformer that
keeps the state it has reached also when it fails (`St`), because some callers go on after an error.

The time zone argument `tz` is dropped: `decode_timezone` always fails, `decode_timezone_abbrev` never
knows a zone and `pg_time_zone_set` never returns one, so no result depends on it. Error messages are
dropped, except where computing the message can panic.
-/

namespace Pg

/-- A computation on a mutable state; the state survives errors. -/
def St (σ α : Type) := σ → Res α × σ

namespace St

/-- Sequencing with `?`. -/
def bind {σ α β : Type} (m : St σ α) (f : α → St σ β) : St σ β := fun s =>
  match m s with
  | (.ok a, s') => f a s'
  | (.err e, s') => (.err e, s')
  | (.panic, s') => (.panic, s')

instance {σ : Type} : Monad (St σ) where
  pure a := fun s => (.ok a, s)
  bind := St.bind

/-- Return an error. -/
def fail {σ α : Type} (e : Err) : St σ α := fun s => (.err e, s)
/-- Panic. -/
def panic {σ α : Type} : St σ α := fun s => (.panic, s)
/-- Read the state. -/
def get {σ : Type} : St σ σ := fun s => (.ok s, s)
/-- Change the state. -/
def mod {σ : Type} (f : σ → σ) : St σ Unit := fun s => (.ok (), f s)
/-- A call that does not use the state. -/
def lift {σ α : Type} (r : Res α) : St σ α := fun s => (r, s)
/-- A call on a part of the state. -/
def zoom {σ τ α : Type} (proj : σ → τ) (put : τ → σ → σ) (m : St τ α) : St σ α := fun s =>
  ((m (proj s)).1, put (m (proj s)).2 s)

end St

/-- src/token.rs:161 `DTK_YEAR_M`. -/
notation "DTK_YEAR_M" => (4 : Nat)
/-- src/token.rs:162 `DTK_MONTH_M`. -/
notation "DTK_MONTH_M" => (2 : Nat)
/-- src/token.rs:163 `DTK_DAY_M`. -/
notation "DTK_DAY_M" => (8 : Nat)
/-- src/token.rs:164 `DTK_YEAR_MONTH_M`. -/
notation "DTK_YEAR_MONTH_M" => (6 : Nat)
/-- src/token.rs:165 `DTK_MONTH_DAY_M`. -/
notation "DTK_MONTH_DAY_M" => (10 : Nat)
/-- src/token.rs:159-160 `DTK_ALL_SECS_M`. -/
notation "DTK_ALL_SECS_M" => (28672 : Nat)
/-- src/token.rs:168 `DTK_TIME_M`. -/
notation "DTK_TIME_M" => (31744 : Nat)
/-- `TokenType::TZ.mask()` -/
notation "TZ_M" => (32 : Nat)
/-- `TokenType::HOUR.mask()` -/
notation "HOUR_M" => (1024 : Nat)
/-- `TokenType::MINUTE.mask()` -/
notation "MINUTE_M" => (2048 : Nat)
/-- `TokenType::SECOND.mask()` -/
notation "SECOND_M" => (4096 : Nat)
/-- `TokenType::DOY.mask()` -/
notation "DOY_M" => (32768 : Nat)

/-- `fold` of decimal digits onto a start value, as in `str2i32` and `str2d`. -/
def foldDigits (start : Int) (s : Bytes) : Int :=
  s.foldl (fun (a : Int) (b : Nat) => a * 10 + ((b : Int) - 48)) start

/-- src/parse.rs:80-86 `extract_sign`. -/
def extractSign (s : Bytes) : Int × Bytes :=
  match s with
  | 43 :: r => (1, r)
  | 45 :: r => (-1, r)
  | _ => (1, s)

/-- src/parse.rs:400-423 `str2i32`. At most ten digits are accepted, so the `i64` arithmetic cannot
overflow. -/
def str2i32 (s : Bytes) : Res (Int × Bytes) :=
  let s := s.dropWhile isSpace
  if s.isEmpty then .ok (0, s)
  else
    let (sign, s) := extractSign s
    let integral := s.takeWhile isDigit
    let s := s.dropWhile isDigit
    if integral.length > 10 then .err .overflow
    else
      let val := foldDigits 0 integral * sign
      if In32 val then .ok (val, s) else .err .overflow

/-- src/parse.rs:438-444: the digits after a decimal point and the rest. -/
def fracPart (s : Bytes) : Bytes × Bytes :=
  match s with
  | 46 :: r => (r.takeWhile isDigit, r.dropWhile isDigit)
  | _ => ([], s)

/-- src/parse.rs:426-464 `str2d`. At most 17 digits are accepted, so the `i64` arithmetic cannot
overflow. -/
def str2d (s : Bytes) : Res (F64 × Bytes) :=
  let s := s.dropWhile isSpace
  if s.isEmpty then .ok (.fin 0, s)
  else
    let (sign, s) := extractSign s
    let integral := s.takeWhile isDigit
    let s := s.dropWhile isDigit
    if integral.length > 10 then .err .overflow
    else
      let (fractional, s) := fracPart s
      if fractional.length > 7 then .err .overflow
      else
        let int := foldDigits 0 integral
        if fractional.isEmpty then .ok (F64.ofInt (int * sign), s)
        else
          let float := foldDigits int fractional
          .ok ((F64.ofInt (float * sign)).div (F64.ofInt (10 ^ fractional.length)), s)

/-- The `&mut` arguments `t_mask`, `tm`, `fsec`, `is2digits` of the number decoders. -/
structure NumS where
  tMask : Nat
  tm : PgTime
  fsec : Int
  is2 : Bool
  deriving DecidableEq, Repr

/-- `(v * 1_000_000_f64).round() as i64` -/
def roundMicros (v : F64) : Int := ((v.mul (.fin 1000000)).round).toI64

/-- src/parse.rs:567-580: a run of digits as a date, from the end: day, month, year. -/
def numberDate (str : Bytes) : St NumS TokenField := do
  let len := str.length
  St.mod fun s => { s with tMask := DTK_DATE_M }
  let (v, _) ← St.lift (str2i32 (str.drop (len - 2)))
  St.mod fun s => { s with tm := { s.tm with mday := v } }
  let (v, _) ← St.lift (str2i32 ((str.drop (len - 4)).take 2))
  St.mod fun s => { s with tm := { s.tm with mon := v } }
  let (v, _) ← St.lift (str2i32 (str.take (len - 4)))
  St.mod fun s => { s with tm := { s.tm with year := v } }
  St.mod fun s => if len - 4 = 2 then { s with is2 := true } else s
  pure .date

/-- src/parse.rs:583-613: a run of `len` digits as a time of day, `hhmmss` or `hhmm`. -/
def numberTime (str : Bytes) (len fMask : Nat) : St NumS TokenField :=
  if fMask &&& DTK_TIME_M ≠ DTK_TIME_M ∧ len = 6 then do
    St.mod fun s => { s with tMask := DTK_TIME_M }
    let (v, _) ← St.lift (str2i32 (str.drop 4))
    St.mod fun s => { s with tm := { s.tm with sec := v } }
    let (v, _) ← St.lift (str2i32 ((str.drop 2).take 2))
    St.mod fun s => { s with tm := { s.tm with min := v } }
    let (v, _) ← St.lift (str2i32 (str.take 2))
    St.mod fun s => { s with tm := { s.tm with hour := v } }
    pure .time
  else if fMask &&& DTK_TIME_M ≠ DTK_TIME_M ∧ len = 4 then do
    St.mod fun s => { s with tMask := DTK_TIME_M, tm := { s.tm with sec := 0 } }
    let (v, _) ← St.lift (str2i32 (str.drop 2))
    St.mod fun s => { s with tm := { s.tm with min := v } }
    let (v, _) ← St.lift (str2i32 (str.take 2))
    St.mod fun s => { s with tm := { s.tm with hour := v } }
    pure .time
  else St.fail .invalid

/-- The number of bytes before the first `.`. -/
def dotPos (s : Bytes) : Nat := (s.takeWhile fun b => b ≠ 46).length

/-- src/parse.rs:541-614 `decode_number_field`. -/
def decodeNumberField (str : Bytes) (fMask : Nat) : St NumS TokenField :=
  if str.length ≠ dotPos str then do
    let (v, _) ← St.lift (str2d (str.drop (dotPos str)))
    St.mod fun s => { s with fsec := roundMicros v }
    numberTime str (dotPos str) fMask
  else if fMask &&& DTK_DATE_M ≠ DTK_DATE_M ∧ str.length ≥ 6 then numberDate str
  else numberTime str str.length fMask

/-- src/parse.rs:657-672 `parse_fractional_second`. -/
def parseFractionalSecond (s : Bytes) : Res Int := do
  let (frac, s) ← str2d s
  if s.isEmpty then .ok (roundMicros frac) else .err .invalid

/-- src/parse.rs:722-814: interpret a number of value `val` by the date fields seen so far; the result
tells whether the code goes on to the check for a two-digit year. -/
def numberByMask (str : Bytes) (val : Int) (haveTextMonth : Bool) (fMask : Nat)
    (order : DateOrder) : St NumS Bool :=
  let year : St NumS Bool := do
    St.mod fun s => { s with tMask := DTK_YEAR_M, tm := { s.tm with year := val } }
    pure true
  let month : St NumS Bool := do
    St.mod fun s => { s with tMask := DTK_MONTH_M, tm := { s.tm with mon := val } }
    pure true
  let day : St NumS Bool := do
    St.mod fun s => { s with tMask := DTK_DAY_M, tm := { s.tm with mday := val } }
    pure true
  let d := fMask &&& DTK_DATE_M
  if d = 0 then
    if str.length ≥ 3 ∨ order = .ymd then year
    else if order = .dmy then day
    else month
  else if d = DTK_YEAR_M then month
  else if d = DTK_MONTH_M then
    if haveTextMonth then
      if str.length ≥ 3 ∨ order = .ymd then year else day
    else day
  else if d = DTK_YEAR_MONTH_M then
    if haveTextMonth then do
      let s ← St.get
      if str.length ≥ 3 ∧ s.is2 = true then do
        St.mod fun s => { s with tMask := DTK_DAY_M, is2 := false,
                                 tm := { s.tm with mday := s.tm.year, year := val } }
        pure true
      else day
    else day
  else if d = DTK_DAY_M then month
  else if d = DTK_MONTH_DAY_M then year
  else if d = DTK_DATE_M then do
    let _ ← decodeNumberField str fMask
    pure false
  else St.fail .invalid

/-- src/parse.rs:714-823: after the number has been read. -/
def decodeNumberVal (str : Bytes) (val : Int) (haveTextMonth : Bool) (fMask : Nat)
    (order : DateOrder) : St NumS Unit :=
  if str.length = 3 ∧ fMask &&& DTK_DATE_M = DTK_YEAR_M ∧ 1 ≤ val ∧ val ≤ 366 then
    St.mod fun s => { s with tMask := DOY_M ||| DTK_MONTH_M ||| DTK_DAY_M,
                             tm := { s.tm with yday := val } }
  else do
    let goOn ← numberByMask str val haveTextMonth fMask order
    St.mod fun s =>
      if goOn ∧ s.tMask = DTK_YEAR_M then { s with is2 := str.length ≤ 2 } else s

/-- A call whose result is ignored, `let _ = …;`. -/
def St.ignore {σ α : Type} (m : St σ α) : St σ Unit := fun s =>
  match m s with
  | (.panic, s') => (.panic, s')
  | (_, s') => (.ok (), s')

/-- src/parse.rs:678-823 `decode_number`. -/
def decodeNumber (str : Bytes) (haveTextMonth : Bool) (fMask : Nat) (order : DateOrder) :
    St NumS Unit := do
  St.mod fun s => { s with tMask := 0 }
  let (val, s) ← St.lift (str2i32 str)
  if s = str then St.fail .invalid
  else
    match s with
    | [] => decodeNumberVal str val haveTextMonth fMask order
    | c :: _ =>
      if c = 46 then
        if str.length - s.length > 2 then
          St.ignore (decodeNumberField str (fMask ||| DTK_DATE_M))
        else do
          let f ← St.lift (parseFractionalSecond s)
          St.mod fun t => { t with fsec := f }
          decodeNumberVal str val haveTextMonth fMask order
      else St.fail .invalid

/-- The decoding context (src/parse.rs:1182-1195 `DecodeDateTimeCtx`, 1895-1906 `DecodeTimeOnlyCtx`,
which has no `have_text_month`) together with the `tm` argument. -/
structure Dec where
  tm : PgTime := {}
  dType : TokenField := .date
  fSec : Int := 0
  fMask : Nat := 0
  tMask : Nat := 0
  pType : TokenField := .number
  isJulian : Bool := false
  is2 : Bool := false
  bc : Bool := false
  mer : Int := 2
  textMonth : Bool := false
  deriving DecidableEq, Repr

/-- A number decoder called with `&mut self.t_mask`, `tm`, `&mut self.f_sec`, `&mut self.is2digits`. -/
def onNum {α : Type} (m : St NumS α) : St Dec α :=
  St.zoom (fun d => ⟨d.tMask, d.tm, d.fSec, d.is2⟩)
    (fun n d => { d with tMask := n.tMask, tm := n.tm, fSec := n.fsec, is2 := n.is2 }) m

/-- The keyword lookups as seen by the decoders, with their own state `C`. -/
structure Look (C : Type) where
  date : C → Nat → Bytes → Res (TokenType × Int) × C
  delta : C → Nat → Bytes → Res (TokenType × Int) × C

/-- The lookups of the code, with the thread's caches. -/
def cachedLook : Look Caches where
  date c i w :=
    match decodeSpecial c i w with
    | .ok (r, c') => (.ok r, c')
    | .err e => (.err e, c)
    | .panic => (.panic, c)
  delta c i w :=
    match decodeUnits c i w with
    | .ok (r, c') => (.ok r, c')
    | .err e => (.err e, c)
    | .panic => (.panic, c)

/-- The same lookups without caches. -/
def plainLook : Look Unit where
  date c _ w :=
    match searchDate w with
    | .ok r => (.ok (tokenResult r), c)
    | .err e => (.err e, c)
    | .panic => (.panic, c)
  delta c _ w :=
    match searchDelta w with
    | .ok r => (.ok (tokenResult r), c)
    | .err e => (.err e, c)
    | .panic => (.panic, c)

/-- A date keyword lookup. -/
def lookDate {σ C : Type} (L : Look C) (i : Nat) (w : Bytes) : St (σ × C) (TokenType × Int) := fun s =>
  ((L.date s.2 i w).1, (s.1, (L.date s.2 i w).2))

/-- An interval unit lookup. -/
def lookDelta {σ C : Type} (L : Look C) (i : Nat) (w : Bytes) : St (σ × C) (TokenType × Int) := fun s =>
  ((L.delta s.2 i w).1, (s.1, (L.delta s.2 i w).2))

/-- A call that does no lookup. -/
def noLook {σ C α : Type} (m : St σ α) : St (σ × C) α := fun s =>
  ((m s.1).1, ((m s.1).2, s.2))

/-- src/parse.rs:849-876 (and 1235-1262): split a date into runs of digits and runs of letters. `nf`
counts the fields; parts beyond `MAX_DATE_FIELDS` are ignored. -/
def dateSplit : Nat → Bytes → Nat → Res (List Bytes)
  | 0, _, _ => .ok []
  | fuel + 1, s, nf =>
    if s.isEmpty ∨ nf ≥ MAX_DATE_FIELDS then .ok []
    else
      match s.dropWhile fun b => ¬ isAlnum b with
      | [] => .err .invalid
      | c :: r =>
        if isDigit c then do
          let l ← dateSplit fuel ((c :: r).dropWhile isDigit) (nf + 1)
          .ok ((c :: r).takeWhile isDigit :: l)
        else do
          let l ← dateSplit fuel ((c :: r).dropWhile isAlpha) (nf + 1)
          .ok ((c :: r).takeWhile isAlpha :: l)

/-- Local variables of `decode_date` and its `&mut` arguments. -/
structure DateS where
  tm : PgTime
  is2 : Bool
  tMask : Nat := 0
  dMask : Nat := 0
  fMask : Nat
  fsec : Int := 0
  haveText : Bool := false
  deriving DecidableEq, Repr

/-- src/parse.rs:878-917 (and 1264-1303): month names. Fields still to be read as numbers are `some`. -/
def textPass {C : Type} (L : Look C) : List Bytes → Nat → St (DateS × C) (List (Option Bytes))
  | [], _ => pure []
  | f :: fs, i =>
    if (f.head?.map isAlpha) = some true then do
      let (ty, val) ← lookDate L i f
      if ty = .ignoreDtf then do
        let r ← textPass L fs (i + 1)
        pure (some f :: r)
      else if ty = .month then do
        noLook (St.mod fun s => { s with haveText := true, tm := { s.tm with mon := val } })
        let s ← noLook St.get
        if s.fMask &&& DTK_MONTH_M ≠ 0 then St.fail .invalid
        else do
          noLook (St.mod fun s => { s with fMask := s.fMask ||| DTK_MONTH_M,
                                           tMask := s.tMask ||| DTK_MONTH_M })
          let r ← textPass L fs (i + 1)
          pure (none :: r)
      else St.fail .invalid
    else do
      let r ← textPass L fs (i + 1)
      pure (some f :: r)

/-- src/parse.rs:919-948 (and 1305-1334): the numbers. -/
def numPass (order : DateOrder) : List (Option Bytes) → St DateS Unit
  | [] => pure ()
  | none :: fs => numPass order fs
  | some f :: fs =>
    if f.isEmpty then St.fail .invalid
    else do
      let s ← St.get
      St.zoom (fun s => ⟨s.dMask, s.tm, s.fsec, s.is2⟩)
        (fun n s => { s with dMask := n.tMask, tm := n.tm, fsec := n.fsec, is2 := n.is2 })
        (decodeNumber f s.haveText s.fMask order)
      let s ← St.get
      if s.fMask &&& s.dMask ≠ 0 then St.fail .invalid
      else do
        St.mod fun s => { s with fMask := s.fMask ||| s.dMask, tMask := s.tMask ||| s.dMask }
        numPass order fs

/-- src/parse.rs:834-958 `decode_date` and 1222-1344 `DecodeDateTimeCtx::decode_date`, which are the
same code; the body on the local variables. -/
def dateBody {C : Type} (L : Look C) (str : Bytes) (order : DateOrder) : St (DateS × C) Unit := do
  let fields ← St.lift (dateSplit (str.length + 1) str 0)
  let left ← textPass L fields 0
  noLook (numPass order left)
  let s ← noLook St.get
  -- `!(DOY | TZ)` on 32 bits
  if s.fMask &&& 4294934495 ≠ DTK_DATE_M then St.fail .invalid else pure ()

/-- src/parse.rs:834-958 `decode_date` and 1222-1344 `DecodeDateTimeCtx::decode_date`. -/
def decodeDate {C : Type} (L : Look C) (str : Bytes) (order : DateOrder) : St (Dec × C) Unit :=
  St.zoom (fun s => (({ tm := s.1.tm, is2 := s.1.is2, fMask := s.1.fMask } : DateS), s.2))
    (fun t s => ({ s.1 with tm := t.1.tm, is2 := t.1.is2, tMask := t.1.tMask }, t.2))
    (dateBody L str order)

/-- The `&mut` arguments `t_mask`, `tm`, `f_sec` of `decode_time`. -/
structure TimeS where
  tMask : Nat
  tm : PgTime
  fsec : Int
  deriving DecidableEq, Repr

/-- src/interval.rs:37 `INTERVAL_MASK_MS`. -/
notation "INTERVAL_MASK_MS" => (6144 : Nat)

/-- src/parse.rs:1009-1025: the seconds of `hh:mm:ss`; `s` is what follows the second colon. -/
def timeSeconds (s : Bytes) : St TimeS Unit := do
  let (v, s) ← St.lift (str2i32 s)
  St.mod fun t => { t with tm := { t.tm with sec := v } }
  match s with
  | [] => St.mod fun t => { t with fsec := 0 }
  | c :: _ =>
    if c = 46 then do
      let f ← St.lift (parseFractionalSecond s)
      St.mod fun t => { t with fsec := f }
    else St.fail .invalid

/-- src/parse.rs:990-1032: what follows the minutes. -/
def timeTail (s : Bytes) (range : Nat) : St TimeS Unit :=
  match s with
  | [] => do
    St.mod fun t => { t with fsec := 0, tm := { t.tm with sec := 0 } }
    if range = INTERVAL_MASK_MS then
      St.mod fun t => { t with tm := { t.tm with sec := t.tm.min, min := t.tm.hour, hour := 0 } }
    else pure ()
  | c :: r =>
    if c = 46 then do
      let f ← St.lift (parseFractionalSecond s)
      St.mod fun t => { t with fsec := f,
                               tm := { t.tm with sec := t.tm.min, min := t.tm.hour, hour := 0 } }
    else if c = 58 then timeSeconds r
    else St.fail .invalid

/-- src/parse.rs:1034-1042: the sanity check at the end of `decode_time`. -/
def badTime (t : TimeS) : Bool :=
  t.tm.hour < 0 || t.tm.min < 0 || t.tm.min > MINS_PER_HOUR - 1 || t.tm.sec < 0 ||
    t.tm.sec > SECS_PER_MINUTE || t.fsec < 0 || t.fsec > USECS_PER_SEC

/-- src/parse.rs:966-1047 `decode_time`. -/
def decodeTime (field : Bytes) (range : Nat) : St TimeS Unit := do
  St.mod fun t => { t with tMask := DTK_TIME_M }
  let (v, s) ← St.lift (str2i32 field)
  St.mod fun t => { t with tm := { t.tm with hour := v } }
  match s with
  | 58 :: r => do
    let (v, s) ← St.lift (str2i32 r)
    St.mod fun t => { t with tm := { t.tm with min := v } }
    timeTail s range
    let t ← St.get
    if badTime t then St.fail .invalid else pure ()
  | _ => St.fail .invalid

/-- `decode_time` called with `&mut ctx.t_mask`, `tm`, `&mut ctx.f_sec`. -/
def onTime {α : Type} (m : St TimeS α) : St Dec α :=
  St.zoom (fun d => ⟨d.tMask, d.tm, d.fSec⟩)
    (fun n d => { d with tMask := n.tMask, tm := n.tm, fSec := n.fsec }) m

/-- src/parse.rs:1346-1432 `DecodeDateTimeCtx::decode_date_token`. -/
def dateToken {C : Type} (p : Profile) (L : Look C) (field : Bytes) (order : DateOrder) :
    St (Dec × C) Unit := do
  let d ← noLook St.get
  if d.pType = .julian then do
    let (val, _) ← St.lift (str2i32 field)
    let c ← St.lift (julian2date p val)
    noLook (St.mod fun d => { d with tm := d.tm.setYmd c, isJulian := true })
    St.fail .invalid
  else if d.pType ≠ .number ∨ d.fMask &&& DTK_MONTH_DAY_M = DTK_MONTH_DAY_M then
    match field with
    | [] => pure ()
    | c :: _ =>
      if isDigit c ∨ d.pType ≠ .number then
        -- with a prefix every path ends in an error: no time prefix, time already seen, no `-`, or
        -- `decode_timezone`
        if d.pType ≠ .number then St.fail .invalid else pure ()
      else St.fail .invalid
  else decodeDate L field order

/-- src/parse.rs:1508-1532 (and 2102-2126): the number after a label `j`, with the fraction of a day. -/
def labelJulian (p : Profile) (val : Int) (s : Bytes) : St Dec Unit :=
  if val < 0 then St.fail .overflow
  else do
    St.mod fun d => { d with tMask := DTK_DATE_M }
    let c ← St.lift (julian2date p val)
    St.mod fun d => { d with tm := d.tm.setYmd c, isJulian := true }
    if s.head? = some 46 then do
      let (time, _) ← St.lift (str2d s)
      let (h, m, sec, f) ← St.lift (date2time p ((time.mul (F64.ofInt USECS_PER_DAY)).toI64))
      St.mod fun d => { d with tm := { d.tm with hour := h, min := m, sec := sec }, fSec := f,
                               tMask := d.tMask ||| DTK_TIME_M }
    else pure ()

/-- src/parse.rs:1466-1558 (and 2059-2154): the assignment for a number after a label. `ty` is the label,
`val` the number, `s` the rest of the field. -/
def labelAssign (p : Profile) (ty : TokenField) (str : Bytes) (val : Int) (s : Bytes) : St Dec Unit :=
  match ty with
  | .year => St.mod fun d => { d with tm := { d.tm with year := val }, tMask := DTK_YEAR_M }
  | .month => St.mod fun d =>
      if d.fMask &&& DTK_MONTH_M ≠ 0 ∧ d.fMask &&& HOUR_M ≠ 0 then
        { d with tm := { d.tm with min := val }, tMask := MINUTE_M }
      else { d with tm := { d.tm with mon := val }, tMask := DTK_MONTH_M }
  | .day => St.mod fun d => { d with tm := { d.tm with mday := val }, tMask := DTK_DAY_M }
  | .hour => St.mod fun d => { d with tm := { d.tm with hour := val }, tMask := HOUR_M }
  | .minute => St.mod fun d => { d with tm := { d.tm with min := val }, tMask := MINUTE_M }
  | .second => do
      St.mod fun d => { d with tm := { d.tm with sec := val }, tMask := SECOND_M }
      if s.head? = some 46 then do
        let f ← St.lift (parseFractionalSecond s)
        St.mod fun d => { d with fSec := f, tMask := DTK_ALL_SECS_M }
      else pure ()
  | .julian => labelJulian p val s
  | .time => do
      let d ← St.get
      let _ ← onNum (decodeNumberField str (d.fMask ||| DTK_DATE_M))
      let d ← St.get
      if d.tMask ≠ DTK_TIME_M then St.fail .invalid else pure ()
  | _ => St.fail .invalid

/-- src/parse.rs:1444-1561 (and 2024-2157): a number that follows a label such as `y` or `h`. For the
label `tz` the time-only decoder sets `t_mask` and then fails; here it only fails. -/
def labelled (p : Profile) (str : Bytes) : St Dec Unit := do
  let d ← St.get
  let (val, s) ← St.lift (str2i32 str)
  if s.head? = some 46 ∧ d.pType ≠ .julian ∧ d.pType ≠ .time ∧ d.pType ≠ .second then St.fail .invalid
  else if s ≠ [] ∧ s.head? ≠ some 46 then St.fail .invalid
  else do
    labelAssign p d.pType str val s
    St.mod fun d => { d with pType := .number, dType := .date }

/-- src/parse.rs:1435-1619 `DecodeDateTimeCtx::decode_number_token`. -/
def numberToken {C : Type} (p : Profile) (L : Look C) (str : Bytes) (order : DateOrder) :
    St (Dec × C) Unit := do
  let d ← noLook St.get
  if d.pType ≠ .number then noLook (labelled p str)
  else if dotPos str ≠ str.length ∧ d.fMask &&& DTK_DATE_M = 0 ∧ str.length ≤ 14 then
    decodeDate L str order
  else if dotPos str ≠ str.length ∧ dotPos str > 2 then do
    let _ ← noLook (onNum (decodeNumberField str d.fMask))
    pure ()
  else if str.length ≥ 6 ∧ (d.fMask &&& DTK_DATE_M = 0 ∨ d.fMask &&& DTK_TIME_M = 0) then do
    let _ ← noLook (onNum (decodeNumberField str d.fMask))
    pure ()
  else noLook (onNum (decodeNumber str false d.fMask order))

/-- src/parse.rs:1646-1675: the reserved words of `decode_date_time`. -/
def reservedWord (val : Int) : St Dec Unit := do
  let f ← St.lift (TokenField.ofInt val)
  match f with
  | .current | .now | .yesterday | .today | .tomorrow => St.fail .invalid
  | .zulu => St.mod fun d => { d with tMask := DTK_TIME_M ||| TZ_M, dType := .date,
                                      tm := { d.tm with hour := 0, min := 0, sec := 0 } }
  | f => St.mod fun d => { d with dType := f }

/-- src/parse.rs:1677-1691: a month name. -/
def monthWord (val : Int) : St Dec Unit :=
  St.mod fun d =>
    if d.fMask &&& DTK_MONTH_M ≠ 0 ∧ d.textMonth = false ∧ d.fMask &&& DTK_DAY_M = 0 ∧
        1 ≤ d.tm.mon ∧ d.tm.mon ≤ 31 then
      { d with tm := { d.tm with mday := d.tm.mon, mon := val }, tMask := DTK_DAY_M, textMonth := true }
    else { d with tm := { d.tm with mon := val }, textMonth := true }

/-- src/parse.rs:1760-1762 (and 2296-2298): a type that may follow `t`. -/
def timeFollows (f : TokenField) : Bool := f = .number || f = .time || f = .date

/-- src/parse.rs:1742-1771: the word `t`. The error message indexes the types at `field_id + 1`, which
panics if `t` is the last field. -/
def isoTimeWord (ftypes : List TokenField) (i : Nat) (val : Int) : St Dec Unit := do
  St.mod fun d => { d with tMask := 0 }
  let d ← St.get
  if d.fMask &&& DTK_DATE_M ≠ DTK_DATE_M then St.fail .invalid
  else
    match ftypes[i + 1]? with
    | none => St.panic
    | some f =>
      if ¬ timeFollows f then St.fail .invalid
      else do
        let f ← St.lift (TokenField.ofInt val)
        St.mod fun d => { d with pType := f }

/-- src/parse.rs:1644-1789: act on a word of type `ty` and value `val`. -/
def wordAction (ftypes : List TokenField) (i : Nat) (ty : TokenType) (val : Int) : St Dec Unit := do
  St.mod fun d => { d with tMask := ty.mask }
  match ty with
  | .reserv => reservedWord val
  | .month => monthWord val
  | .ampm => St.mod fun d => { d with mer := val }
  | .adbc => St.mod fun d => { d with bc := val = 1 }
  | .dow => St.mod fun d => { d with tm := { d.tm with wday := val } }
  | .units => do
    St.mod fun d => { d with tMask := 0 }
    let f ← St.lift (TokenField.ofInt val)
    St.mod fun d => { d with pType := f }
  | .isotime => isoTimeWord ftypes i val
  | _ => St.fail .invalid

/-- src/parse.rs:1621-1791 `DecodeDateTimeCtx::decode_string_and_special_token`; `true` means that the
field is ignored. -/
def wordToken {C : Type} (L : Look C) (ftypes : List TokenField) (i : Nat) (field : Bytes) :
    St (Dec × C) Bool := do
  let (ty, val) ← lookDate L i field
  if ty = .ignoreDtf then pure true
  else do
    noLook (wordAction ftypes i ty val)
    pure false

/-- src/parse.rs:1812-1841: a clock time in `decode_date_time`, with the upper limit on hours. -/
def timeToken (field : Bytes) : St Dec Unit := do
  let d ← St.get
  if d.pType ≠ .number ∧ d.pType ≠ .time then St.fail .invalid
  else do
    St.mod fun d => { d with pType := .number }
    onTime (decodeTime field INTERVAL_FULL_RANGE)
    let d ← St.get
    if d.tm.hour > HOURS_PER_DAY ∨
        (d.tm.hour = HOURS_PER_DAY ∧ (d.tm.min > 0 ∨ d.tm.sec > 0 ∨ d.fSec > 0)) then
      St.fail .overflow
    else pure ()

/-- src/parse.rs:1159-1168 `check_mask_set`, and (1864-1865, 2383-2384) the update of `f_mask`. -/
def addMask : St Dec Unit := do
  let d ← St.get
  if d.tMask &&& d.fMask ≠ 0 then St.fail .invalid
  else St.mod fun d => { d with fMask := d.fMask ||| d.tMask }

/-- src/parse.rs:1808-1865: one field of `decode_date_time`. -/
def dateTimeField {C : Type} (p : Profile) (L : Look C) (order : DateOrder)
    (ftypes : List TokenField) (i : Nat) (f : Field) : St (Dec × C) Unit :=
  match f.1 with
  | .date => do dateToken p L f.2 order; noLook addMask
  | .time => do noLook (timeToken f.2); noLook addMask
  | .number => do numberToken p L f.2 order; noLook addMask
  | .string | .special => do
    let ignored ← wordToken L ftypes i f.2
    if ignored then pure () else noLook addMask
  | _ => St.fail .invalid

/-- src/parse.rs:1807-1866: the loop of `decode_date_time`. -/
def dateTimeLoop {C : Type} (p : Profile) (L : Look C) (order : DateOrder)
    (ftypes : List TokenField) : List Field → Nat → St (Dec × C) Unit
  | [], _ => pure ()
  | f :: fs, i => do
    dateTimeField p L order ftypes i f
    dateTimeLoop p L order ftypes fs (i + 1)

/-- src/parse.rs:1868-1878 (and 2387-2397): final check of the date fields and the a.m./p.m. rule. -/
def finishFields (p : Profile) : St Dec Unit := do
  let d ← St.get
  let tm ← St.lift (d.tm.validateDate p d.fMask d.isJulian d.is2 d.bc)
  St.mod fun d => { d with tm := tm }
  let d ← St.get
  if d.mer ≠ 2 ∧ d.tm.hour > 12 then St.fail .overflow
  else if d.mer = 0 ∧ d.tm.hour = 12 then St.mod fun d => { d with tm := { d.tm with hour := 0 } }
  else if d.mer = 1 ∧ d.tm.hour ≠ 12 then do
    let h ← St.lift (chk32 p (d.tm.hour + 12))
    St.mod fun d => { d with tm := { d.tm with hour := h } }
  else pure ()

/-- src/parse.rs:1794-1892 `decode_date_time`; the results are in the state (`dType`, `fSec`, `tm`). The
first component of the code's result (0 or 1) is not used by any caller. -/
def decodeDateTime {C : Type} (p : Profile) (L : Look C) (order : DateOrder) (fields : List Field) :
    St (Dec × C) Unit := do
  dateTimeLoop p L order (fields.map Prod.fst) fields 0
  noLook (finishFields p)
  let d ← noLook St.get
  if d.dType = .date ∧ d.fMask &&& DTK_DATE_M ≠ DTK_DATE_M ∧ d.fMask &&& DTK_TIME_M ≠ DTK_TIME_M then
    St.fail .invalid
  else pure ()

/-- src/parse.rs:1925-2011 `DecodeTimeOnlyCtx::decode_date_token`, for `tz = Some(_)` (the only caller
passes `Some(0)`). -/
def dateTokenT {C : Type} (L : Look C) (order : DateOrder) (ftypes : List TokenField) (i : Nat)
    (field : Bytes) : St (Dec × C) Unit :=
  if i = 0 ∧ ftypes.length ≥ 2 ∧ (ftypes.getLast? = some .date ∨ ftypes[1]? = some .time) then
    decodeDate L field order
  else St.fail .invalid

/-- src/parse.rs:2013-2220 `DecodeTimeOnlyCtx::decode_number_token`. The type that the code stores for
the current field is never read again and is not kept. -/
def numberTokenT {C : Type} (p : Profile) (L : Look C) (order : DateOrder)
    (ftypes : List TokenField) (i : Nat) (str : Bytes) : St (Dec × C) Unit := do
  let d ← noLook St.get
  if d.pType ≠ .number then noLook (labelled p str)
  else if dotPos str ≠ str.length then
    if i = 0 ∧ ftypes.length ≥ 2 ∧ ftypes.getLast? = some .date then decodeDate L str order
    else if dotPos str > 2 then do
      let _ ← noLook (onNum (decodeNumberField str (d.fMask ||| DTK_DATE_M)))
      pure ()
    else St.fail .invalid
  else if str.length > 4 then do
    let _ ← noLook (onNum (decodeNumberField str (d.fMask ||| DTK_DATE_M)))
    pure ()
  else noLook (onNum (decodeNumber str false (d.fMask ||| DTK_DATE_M) order))

/-- src/parse.rs:2288-2306: the word `t` in a time of day. -/
def isoTimeWordT (ftypes : List TokenField) (i : Nat) (val : Int) : St Dec Unit := do
  St.mod fun d => { d with tMask := 0 }
  match ftypes[i + 1]? with
  | none => St.fail .invalid
  | some f =>
    if ¬ timeFollows f then St.fail .invalid
    else do
      let f ← St.lift (TokenField.ofInt val)
      St.mod fun d => { d with pType := f }

/-- src/parse.rs:2247-2274: the reserved words of `decode_time_only`. -/
def reservedWordT (val : Int) : St Dec Unit := do
  let f ← St.lift (TokenField.ofInt val)
  match f with
  | .zulu => St.mod fun d => { d with tMask := DTK_TIME_M ||| TZ_M, dType := .time,
                                      tm := { d.tm with hour := 0, min := 0, sec := 0, isdst := 0 } }
  | _ => St.fail .invalid

/-- src/parse.rs:2245-2324: act on a word in a time of day. -/
def wordActionT (ftypes : List TokenField) (i : Nat) (ty : TokenType) (val : Int) : St Dec Unit := do
  St.mod fun d => { d with tMask := ty.mask }
  match ty with
  | .reserv => reservedWordT val
  | .ampm => St.mod fun d => { d with mer := val }
  | .adbc => St.mod fun d => { d with bc := val = 1 }
  | .units => do
    St.mod fun d => { d with tMask := 0 }
    let f ← St.lift (TokenField.ofInt val)
    St.mod fun d => { d with pType := f }
  | .isotime => isoTimeWordT ftypes i val
  | _ => St.fail .invalid

/-- src/parse.rs:2222-2326 `DecodeTimeOnlyCtx::decode_string_and_special_token`. -/
def wordTokenT {C : Type} (L : Look C) (ftypes : List TokenField) (i : Nat) (field : Bytes) :
    St (Dec × C) Bool := do
  let (ty, val) ← lookDate L i field
  if ty = .ignoreDtf then pure true
  else do
    noLook (wordActionT ftypes i ty val)
    pure false

/-- src/parse.rs:2344-2384: one field of `decode_time_only`. -/
def timeOnlyField {C : Type} (p : Profile) (L : Look C) (order : DateOrder)
    (ftypes : List TokenField) (i : Nat) (f : Field) : St (Dec × C) Unit :=
  match f.1 with
  | .date => do dateTokenT L order ftypes i f.2; noLook addMask
  | .time => do noLook (onTime (decodeTime f.2 INTERVAL_FULL_RANGE)); noLook addMask
  | .number => do numberTokenT p L order ftypes i f.2; noLook addMask
  | .string | .special => do
    let ignored ← wordTokenT L ftypes i f.2
    if ignored then pure () else noLook addMask
  | _ => St.fail .invalid

/-- src/parse.rs:2342-2385: the loop of `decode_time_only`. -/
def timeOnlyLoop {C : Type} (p : Profile) (L : Look C) (order : DateOrder)
    (ftypes : List TokenField) : List Field → Nat → St (Dec × C) Unit
  | [], _ => pure ()
  | f :: fs, i => do
    timeOnlyField p L order ftypes i f
    timeOnlyLoop p L order ftypes fs (i + 1)

/-- src/parse.rs:2399-2411: the final range check of `decode_time_only`. -/
def badTimeOnly (d : Dec) : Bool :=
  d.tm.hour < 0 || d.tm.min < 0 || d.tm.min > MINS_PER_HOUR - 1 || d.tm.sec < 0 ||
    d.tm.sec > SECS_PER_MINUTE || d.tm.hour > HOURS_PER_DAY ||
    (d.tm.hour = HOURS_PER_DAY && (d.tm.min > 0 || d.tm.sec > 0 || d.fSec > 0)) ||
    d.fSec < 0 || d.fSec > USECS_PER_SEC

/-- src/parse.rs:2329-2415 `decode_time_only`. -/
def decodeTimeOnly {C : Type} (p : Profile) (L : Look C) (order : DateOrder) (fields : List Field) :
    St (Dec × C) Unit := do
  timeOnlyLoop p L order (fields.map Prod.fst) fields 0
  noLook (finishFields p)
  let d ← noLook St.get
  if badTimeOnly d then St.fail .overflow else pure ()

end Pg
