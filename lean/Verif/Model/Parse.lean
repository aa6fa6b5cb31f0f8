import Verif.Model.DecodeInterval

/-!
# Parsing: `try_from_str` of the four types

The text is any byte string (the code's `&str` is always UTF-8). The caches of the thread are the
state; `L` is the lookup used. `u` is the uninitialised type of a field that is only a sign.
-/

namespace Pg

/-- Run a decoder on its own local state. -/
def runLocal {σ C α : Type} (init : σ) (m : St (σ × C) α) : St C (α × σ) := fun c =>
  match m (init, c) with
  | (.ok a, (s, c')) => (.ok (a, s), c')
  | (.err e, (_, c')) => (.err e, c')
  | (.panic, (_, c')) => (.panic, c')

/-- src/date.rs:219-248: the date of the decoded fields. -/
def Date.ofDec (p : Profile) (d : Dec) : Res Date :=
  match d.dType with
  | .date =>
    if ¬ isValidJulian d.tm.year d.tm.mon then .err .invalid
    else do
      let j ← date2julian p d.tm.year d.tm.mon d.tm.mday
      let date ← chk32 p (j - POSTGRES_EPOCH_JDATE)
      if Date.isValidDate date then .ok ⟨date⟩ else .err .invalid
  | .late => .ok ⟨i32Max⟩
  | .early => .ok ⟨i32Min⟩
  | _ => .err .invalid

/-- src/date.rs:201-249 `Date::try_from_str`. -/
def Date.tryFromStrW {C : Type} (p : Profile) (L : Look C) (u : TokenField) (order : DateOrder)
    (s : Bytes) : St C Date := do
  let fields ← St.lift (scan u s)
  let (_, d) ← runLocal {} (decodeDateTime p L order fields)
  St.lift (Date.ofDec p d)

/-- src/timestamp.rs:150-162 `Timestamp::from_pgtime_with_type`. -/
def Timestamp.ofDec (p : Profile) (d : Dec) : Res Timestamp :=
  match d.dType with
  | .date => do
    let v ← d.tm.toTimestamp p d.fSec
    .ok ⟨v⟩
  | .late => .ok ⟨i64Max⟩
  | .early => .ok ⟨i64Min⟩
  | _ => .err .invalid

/-- src/timestamp.rs:166-189 `Timestamp::try_from_str`. -/
def Timestamp.tryFromStrW {C : Type} (p : Profile) (L : Look C) (u : TokenField) (typmod : Int)
    (order : DateOrder) (s : Bytes) : St C Timestamp := do
  let fields ← St.lift (scan u s)
  let (_, d) ← runLocal {} (decodeDateTime p L order fields)
  let t ← St.lift (Timestamp.ofDec p d)
  St.lift (t.adjustByTypmod p typmod)

/-- src/time.rs:105-130 `Time::try_from_str`. -/
def Time.tryFromStrW {C : Type} (p : Profile) (L : Look C) (u : TokenField) (typmod : Int)
    (order : DateOrder) (s : Bytes) : St C Time := do
  let fields ← St.lift (scan u s)
  let (_, d) ← runLocal {} (decodeTimeOnly p L order fields)
  let t ← St.lift (Time.fromPgtime p d.tm d.fSec)
  St.lift (t.adjustByTypmod p typmod)

/-- `if let Err(e) = err { if e.is_invalid() { … } else { return Err(e) } }` -/
def St.orElse {σ α : Type} (m h : St σ α) : St σ α := fun s =>
  match m s with
  | (.err .invalid, s') => h s'
  | r => r

/-- src/interval.rs:549-553: the range of fields given by the type modifier. -/
def parseRange (typmod : Int) : Nat :=
  if typmod ≥ 0 then Interval.intervalRange typmod else INTERVAL_FULL_RANGE

/-- src/interval.rs:572-584: the interval of the decoded fields. -/
def Interval.ofDec (p : Profile) (s : IvS) (typmod : Int) : Res Interval :=
  if s.dType = .delta then do
    let r ← Interval.fromPgtime p s.t.1 s.t.2
    r.adjustByTypmod p typmod
  else .err .invalid

/-- src/interval.rs:535-585 `Interval::try_from_str`. The second decoder gets the fields as the first
one left them. -/
def Interval.tryFromStrW {C : Type} (p : Profile) (L : Look C) (u : TokenField) (typmod : Int)
    (style : IntervalStyle) (s : Bytes) : St C Interval := do
  let fields ← St.lift (scan u s)
  let (_, d) ← runLocal {} (St.orElse (decodeInterval p L (parseRange typmod) style fields)
    (noLook (decodeIsoInterval p s)))
  St.lift (Interval.ofDec p d typmod)

/-- src/date.rs:201-249 `Date::try_from_str` on a thread whose caches are `c`. -/
def Date.tryFromStr (p : Profile) (u : TokenField) (c : Caches) (s : Bytes) (order : DateOrder) :
    Res Date := (Date.tryFromStrW p cachedLook u order s c).1
/-- src/time.rs:105-130 `Time::try_from_str` on a thread whose caches are `c`. -/
def Time.tryFromStr (p : Profile) (u : TokenField) (c : Caches) (s : Bytes) (typmod : Int)
    (order : DateOrder) : Res Time := (Time.tryFromStrW p cachedLook u typmod order s c).1
/-- src/timestamp.rs:166-189 `Timestamp::try_from_str` on a thread whose caches are `c`. -/
def Timestamp.tryFromStr (p : Profile) (u : TokenField) (c : Caches) (s : Bytes) (typmod : Int)
    (order : DateOrder) : Res Timestamp := (Timestamp.tryFromStrW p cachedLook u typmod order s c).1
/-- src/interval.rs:535-585 `Interval::try_from_str` on a thread whose caches are `c`. -/
def Interval.tryFromStr (p : Profile) (u : TokenField) (c : Caches) (s : Bytes) (typmod : Int)
    (style : IntervalStyle) : Res Interval := (Interval.tryFromStrW p cachedLook u typmod style s c).1

end Pg
