import Verif.Model.Format
import Verif.Model.Parse

/-!
# Serialisation

src/serde.rs. A data format is represented by what it exchanges with the crate: the value handed to the
serializer (`SerVal`), and the value a deserializer shows to the visitor (`DeVal`). The bytes a format
makes of them are outside the crate and not modelled. The code for `is_human_readable() == true` is
`serText`/`deText`, the rest is `serBin`/`deBin`.
-/

namespace Pg

/-- What is handed to a serializer: `serialize_str`, `serialize_i32`, `serialize_i64`, or
`serialize_struct` with the fields in the order of the calls. -/
inductive SerVal where
  | str (b : Bytes)
  | i32 (v : Int)
  | i64 (v : Int)
  | struct (fields : List (Bytes × SerVal))

/-- One element of a sequence or map in the input: an integer of any width, or something else. -/
inductive Elem where
  | int (v : Int)
  | other
  deriving DecidableEq, Repr

/-- What a deserializer shows to the visitor. -/
inductive DeVal where
  | str (b : Bytes)
  | i32 (v : Int)
  | i64 (v : Int)
  | seq (l : List Elem)
  | map (l : List (Bytes × Elem))
  | other
  deriving DecidableEq, Repr

/-- Errors of deserialisation: `custom` with the crate's error, and those of the serde library. -/
inductive DeErr where
  | custom (e : Err)
  | invalidType
  | invalidValue
  | invalidLength (n : Nat)
  | unknownField
  | duplicateField (name : Bytes)
  | missingField (name : Bytes)
  deriving DecidableEq, Repr

/-- Result of deserialisation. -/
inductive De (α : Type) where
  | ok (a : α)
  | err (e : DeErr)
  | panic
  deriving DecidableEq, Repr

namespace De

/-- `?` -/
def bind {α β : Type} (x : De α) (f : α → De β) : De β :=
  match x with
  | .ok a => f a
  | .err e => .err e
  | .panic => .panic

instance : Monad De where
  pure := .ok
  bind := bind

/-- `.map_err(de::Error::custom)` -/
def custom {α : Type} : Res α → De α
  | .ok a => .ok a
  | .err e => .err (.custom e)
  | .panic => .panic

end De

/-- `i64::deserialize` of the serde library. -/
def Elem.toI64 : Elem → De Int
  | .int v => if In64 v then .ok v else .err .invalidValue
  | .other => .err .invalidType
/-- `i32::deserialize` of the serde library. -/
def Elem.toI32 : Elem → De Int
  | .int v => if In32 v then .ok v else .err .invalidValue
  | .other => .err .invalidType

/-- src/serde.rs:23-38, human readable. -/
def Date.serText (p : Profile) (junk : Bytes) (d : Date) : Res SerVal := do
  let s ← d.format p junk .iso .ymd
  .ok (.str s)
/-- src/serde.rs:23-38, binary. -/
def Date.serBin (d : Date) : SerVal := .i32 d.v
/-- src/serde.rs:40-79: the visitor. A 64-bit integer is refused by the default `visit_i64` of the
serde library. -/
def Date.visit (p : Profile) (u : TokenField) (c : Caches) : DeVal → De Date
  | .i32 v => .ok ⟨v⟩
  | .str s => De.custom (Date.tryFromStr p u c s .ymd)
  | _ => .err .invalidType

/-- src/serde.rs:81-94, human readable. -/
def Time.serText (p : Profile) (junk : Bytes) (t : Time) : Res SerVal := do
  let s ← t.format p junk .iso
  .ok (.str s)
/-- src/serde.rs:81-94, binary. -/
def Time.serBin (t : Time) : SerVal := .i64 t.v
/-- src/serde.rs:96-135: the visitor. A 32-bit integer reaches `visit_i64` through the default
`visit_i32` of the serde library. -/
def Time.visit (p : Profile) (u : TokenField) (c : Caches) : DeVal → De Time
  | .i64 v => .ok ⟨v⟩
  | .i32 v => .ok ⟨v⟩
  | .str s => De.custom (Time.tryFromStr p u c s (-1) .ymd)
  | _ => .err .invalidType

/-- src/serde.rs:137-152, human readable. -/
def Timestamp.serText (p : Profile) (junk : Bytes) (t : Timestamp) : Res SerVal := do
  let s ← t.format p junk .iso .ymd
  .ok (.str s)
/-- src/serde.rs:137-152, binary. -/
def Timestamp.serBin (t : Timestamp) : SerVal := .i64 t.v
/-- src/serde.rs:154-193: the visitor; 32-bit integers as for `Time`. -/
def Timestamp.visit (p : Profile) (u : TokenField) (c : Caches) : DeVal → De Timestamp
  | .i64 v => .ok ⟨v⟩
  | .i32 v => .ok ⟨v⟩
  | .str s => De.custom (Timestamp.tryFromStr p u c s (-1) .ymd)
  | _ => .err .invalidType

/-- src/serde.rs:195-214, human readable. -/
def Interval.serText (p : Profile) (junk : Bytes) (a : Interval) : Res SerVal := do
  let s ← a.format p junk .sqlStandard
  .ok (.str s)
/-- src/serde.rs:195-214, binary. -/
def Interval.serBin (a : Interval) : SerVal :=
  .struct [(b!"time", .i64 a.time), (b!"day", .i32 a.day), (b!"month", .i32 a.month)]

/-- src/serde.rs:224-228 `Field`. -/
inductive IvField where
  | time
  | day
  | month
  deriving DecidableEq, Repr

/-- src/serde.rs:230-262: the name of a field. -/
def IvField.ofName (s : Bytes) : De IvField :=
  if s = b!"time" then .ok .time
  else if s = b!"day" then .ok .day
  else if s = b!"month" then .ok .month
  else .err .unknownField

/-- `seq.next_element()?.ok_or_else(|| invalid_length(n))?` -/
def nextElem (conv : Elem → De Int) (n : Nat) (l : List Elem) : De (Int × List Elem) :=
  match l with
  | [] => .err (.invalidLength n)
  | e :: r => do
    let v ← conv e
    .ok (v, r)

/-- src/serde.rs:282-297 `visit_seq`. -/
def Interval.visitSeq (l : List Elem) : De Interval := do
  let (time, l) ← nextElem Elem.toI64 0 l
  let (day, l) ← nextElem Elem.toI32 1 l
  let (month, _) ← nextElem Elem.toI32 2 l
  .ok ⟨month, day, time⟩

/-- The local variables of `visit_map`. -/
structure MapS where
  time : Option Int := none
  day : Option Int := none
  month : Option Int := none
  deriving DecidableEq, Repr

/-- `None => x = Some(map.next_value()?), Some(_) => return Err(duplicate_field(name))` -/
def fillField (conv : Elem → De Int) (name : Bytes) (old : Option Int) (e : Elem) : De (Option Int) :=
  match old with
  | none => do
    let v ← conv e
    .ok (some v)
  | some _ => .err (.duplicateField name)

/-- src/serde.rs:307-322: the loop of `visit_map`. -/
def mapLoop : List (Bytes × Elem) → MapS → De MapS
  | [], s => .ok s
  | (k, e) :: r, s => do
    let f ← IvField.ofName k
    match f with
    | .time => do
      let v ← fillField Elem.toI64 b!"time" s.time e
      mapLoop r { s with time := v }
    | .day => do
      let v ← fillField Elem.toI32 b!"day" s.day e
      mapLoop r { s with day := v }
    | .month => do
      let v ← fillField Elem.toI32 b!"month" s.month e
      mapLoop r { s with month := v }

/-- `x.ok_or_else(|| missing_field(name))?` -/
def needField (name : Bytes) : Option Int → De Int
  | some v => .ok v
  | none => .err (.missingField name)

/-- src/serde.rs:299-327 `visit_map`. -/
def Interval.visitMap (l : List (Bytes × Elem)) : De Interval := do
  let s ← mapLoop l {}
  let time ← needField b!"time" s.time
  let day ← needField b!"day" s.day
  let month ← needField b!"month" s.month
  .ok ⟨month, day, time⟩

/-- src/serde.rs:264-328: the visitor. -/
def Interval.visit (p : Profile) (u : TokenField) (c : Caches) : DeVal → De Interval
  | .str s => De.custom (Interval.tryFromStr p u c s (-1) .sqlStandard)
  | .seq l => Interval.visitSeq l
  | .map l => Interval.visitMap l
  | _ => .err .invalidType

end Pg
