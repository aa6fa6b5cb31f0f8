import Verif.Model.Parse
import Verif.Model.Format
import Verif.Model.Construct
import Verif.Model.DatePart

/-!
# The repository's own unit tests, run on the model

Each example is one assertion of the `#[cfg(test)]` modules of `src/date.rs`, `src/time.rs`,
`src/timestamp.rs` and `src/interval.rs`, translated mechanically and evaluated on the model. These
are tests of the transcription, not proofs of properties.

One assertion of `src/interval.rs` (line 1504) is left out: it multiplies `f64::MAX` by a million and
casts the infinity to `i64`. The expected text is that of compilers before Rust 1.45, where the cast
gave `i64::MIN`; since then it saturates at `i64::MAX`, as in the model.
-/

namespace RepoTests
open Pg

/-- The work buffer before formatting. -/
def junk : Bytes := List.replicate 128 0
/-- The call returns an error. -/
def isErr {α : Type} : Res α → Bool
  | .err _ => true
  | _ => false
/-- The call returns the expected value. -/
def same {α : Type} [DecidableEq α] : Res α → Res α → Bool
  | .ok a, .ok b => decide (a = b)
  | _, _ => false

example : same (((Res.ok (isErr (Date.tryFromStr .debug .number Caches.new b!"y2.3" DateOrder.mdy))) : Res Bool)) (.ok true) := by decide +kernel
example : same (((Res.ok (isErr (Date.tryFromStr .debug .number Caches.new b!"  2003-04-12 dow 123456-2" DateOrder.mdy))) : Res Bool)) (.ok true) := by decide +kernel
example : same (((Res.ok (isErr (Date.tryFromStr .debug .number Caches.new b!"  2003-04-12 t 123456/2" DateOrder.mdy))) : Res Bool)) (.ok true) := by decide +kernel
example : same (((Res.ok (isErr (Date.tryFromStr .debug .number Caches.new b!"  2003-04-12 t 123456-2" DateOrder.mdy))) : Res Bool)) (.ok true) := by decide +kernel
example : same (((Res.ok (isErr (Date.tryFromStr .debug .number Caches.new b!"  2003-04-12 04:05:06 t 123456-2" DateOrder.mdy))) : Res Bool)) (.ok true) := by decide +kernel
example : same (((Res.ok (isErr (Date.tryFromStr .debug .number Caches.new b!"  2003-04-12 04:05:06 America/New_Yor" DateOrder.mdy))) : Res Bool)) (.ok true) := by decide +kernel
example : same (((Res.ok (isErr (Date.tryFromStr .debug .number Caches.new b!"  2003-04-12 04:05:06 America/New_Yor" DateOrder.mdy))) : Res Bool)) (.ok true) := by decide +kernel
example : same (((Res.ok (isErr (Date.tryFromStr .debug .number Caches.new b!"1999-7--7-08" DateOrder.mdy))) : Res Bool)) (.ok true) := by decide +kernel
example : same (((Res.ok (isErr (Date.tryFromStr .debug .number Caches.new b!"1999-at-08" DateOrder.mdy))) : Res Bool)) (.ok true) := by decide +kernel
example : same (((Res.ok (isErr (Date.tryFromStr .debug .number Caches.new b!"1999-jan-jan" DateOrder.mdy))) : Res Bool)) (.ok true) := by decide +kernel
example : same (((Res.ok (isErr (Date.tryFromStr .debug .number Caches.new b!"1999-Jqn-08" DateOrder.mdy))) : Res Bool)) (.ok true) := by decide +kernel
example : same (((Res.ok (isErr (Date.tryFromStr .debug .number Caches.new b!"20000000000000000000" DateOrder.mdy))) : Res Bool)) (.ok true) := by decide +kernel
example : same (((Res.ok (isErr (Date.tryFromStr .debug .number Caches.new b!"j1999-3-4:3:5:5" DateOrder.mdy))) : Res Bool)) (.ok true) := by decide +kernel
example : same (((Res.ok (isErr (Date.tryFromStr .debug .number Caches.new b!"" DateOrder.mdy))) : Res Bool)) (.ok true) := by decide +kernel
example : same (((Res.ok (isErr (Date.tryFromStr .debug .number Caches.new b!"  +" DateOrder.mdy))) : Res Bool)) (.ok true) := by decide +kernel
example : same (((Res.ok (isErr (Date.tryFromStr .debug .number Caches.new b!"-/" DateOrder.mdy))) : Res Bool)) (.ok true) := by decide +kernel
example : same (((Res.ok (isErr (Date.tryFromStr .debug .number Caches.new b!"1988/" DateOrder.mdy))) : Res Bool)) (.ok true) := by decide +kernel
example : same (((Date.tryFromStr .debug .number Caches.new b!"  990619  " DateOrder.mdy).bind fun x => Date.format .debug junk x DateStyle.iso DateOrder.ymd) : Res Bytes) (Res.ok b!"1999-06-19") := by decide +kernel
example : same (((Date.tryFromStr .debug .number Caches.new b!"1999-03-31 123456" DateOrder.mdy).bind fun x => Date.format .debug junk x DateStyle.iso DateOrder.ymd) : Res Bytes) (Res.ok b!"1999-03-31") := by decide +kernel
example : same (((Date.tryFromStr .debug .number Caches.new b!"1999-03-31 1234" DateOrder.mdy).bind fun x => Date.format .debug junk x DateStyle.iso DateOrder.ymd) : Res Bytes) (Res.ok b!"1999-03-31") := by decide +kernel
example : same (((Date.tryFromStr .debug .number Caches.new b!"-infinity" DateOrder.mdy).bind fun x => Date.format .debug junk x DateStyle.iso DateOrder.ymd) : Res Bytes) (Res.ok b!"-infinity") := by decide +kernel
example : same (((Date.tryFromStr .debug .number Caches.new b!"infinity" DateOrder.mdy).bind fun x => Date.format .debug junk x DateStyle.iso DateOrder.ymd) : Res Bytes) (Res.ok b!"infinity") := by decide +kernel
example : same (((Date.tryFromStr .debug .number Caches.new b!"1999-01-08" DateOrder.mdy).bind fun x => Date.format .debug junk x DateStyle.iso DateOrder.ymd) : Res Bytes) (Res.ok b!"1999-01-08") := by decide +kernel
example : same (((Date.tryFromStr .debug .number Caches.new b!"1999-01-08" DateOrder.mdy).bind fun x => Date.format .debug junk x DateStyle.postgres DateOrder.ymd) : Res Bytes) (Res.ok b!"01.08.1999") := by decide +kernel
example : same (((Date.tryFromStr .debug .number Caches.new b!"1999-01-08" DateOrder.mdy).bind fun x => Date.format .debug junk x DateStyle.sql DateOrder.ymd) : Res Bytes) (Res.ok b!"01/08/1999") := by decide +kernel
example : same (((Date.tryFromStr .debug .number Caches.new b!"1999-01-08" DateOrder.mdy).bind fun x => Date.format .debug junk x DateStyle.german DateOrder.ymd) : Res Bytes) (Res.ok b!"08.01.1999") := by decide +kernel
example : same (((Date.tryFromStr .debug .number Caches.new b!"1999-01-08" DateOrder.mdy).bind fun x => Date.format .debug junk x DateStyle.xsd DateOrder.ymd) : Res Bytes) (Res.ok b!"1999-01-08") := by decide +kernel
example : same (((Date.tryFromStr .debug .number Caches.new b!"January 8, 1999" DateOrder.mdy).bind fun x => Date.format .debug junk x DateStyle.iso DateOrder.ymd) : Res Bytes) (Res.ok b!"1999-01-08") := by decide +kernel
example : same (((Date.tryFromStr .debug .number Caches.new b!"1/8/1999" DateOrder.mdy).bind fun x => Date.format .debug junk x DateStyle.iso DateOrder.ymd) : Res Bytes) (Res.ok b!"1999-01-08") := by decide +kernel
example : same (((Date.tryFromStr .debug .number Caches.new b!"1/18/1999" DateOrder.mdy).bind fun x => Date.format .debug junk x DateStyle.iso DateOrder.ymd) : Res Bytes) (Res.ok b!"1999-01-18") := by decide +kernel
example : same (((Date.tryFromStr .debug .number Caches.new b!"01/02/03" DateOrder.mdy).bind fun x => Date.format .debug junk x DateStyle.iso DateOrder.ymd) : Res Bytes) (Res.ok b!"2003-01-02") := by decide +kernel
example : same (((Date.tryFromStr .debug .number Caches.new b!"1999-Jan-08" DateOrder.mdy).bind fun x => Date.format .debug junk x DateStyle.iso DateOrder.ymd) : Res Bytes) (Res.ok b!"1999-01-08") := by decide +kernel
example : same (((Date.tryFromStr .debug .number Caches.new b!"Jan-08-1999" DateOrder.mdy).bind fun x => Date.format .debug junk x DateStyle.iso DateOrder.ymd) : Res Bytes) (Res.ok b!"1999-01-08") := by decide +kernel
example : same (((Date.tryFromStr .debug .number Caches.new b!"08-Jan-1999" DateOrder.mdy).bind fun x => Date.format .debug junk x DateStyle.iso DateOrder.ymd) : Res Bytes) (Res.ok b!"1999-01-08") := by decide +kernel
example : same (((Date.tryFromStr .debug .number Caches.new b!"99-Jan-08" DateOrder.ymd).bind fun x => Date.format .debug junk x DateStyle.iso DateOrder.ymd) : Res Bytes) (Res.ok b!"1999-01-08") := by decide +kernel
example : same (((Res.ok (isErr (Date.tryFromStr .debug .number Caches.new b!"99-Jan-08" DateOrder.dmy))) : Res Bool)) (.ok true) := by decide +kernel
example : same (((Res.ok (isErr (Date.tryFromStr .debug .number Caches.new b!"99-Jan-08" DateOrder.mdy))) : Res Bool)) (.ok true) := by decide +kernel
example : same (((Date.tryFromStr .debug .number Caches.new b!"08-Jan-99" DateOrder.mdy).bind fun x => Date.format .debug junk x DateStyle.iso DateOrder.ymd) : Res Bytes) (Res.ok b!"1999-01-08") := by decide +kernel
example : same (((Date.tryFromStr .debug .number Caches.new b!"08-Jan-99" DateOrder.dmy).bind fun x => Date.format .debug junk x DateStyle.iso DateOrder.ymd) : Res Bytes) (Res.ok b!"1999-01-08") := by decide +kernel
example : same (((Res.ok (isErr (Date.tryFromStr .debug .number Caches.new b!"08-Jan-99" DateOrder.ymd))) : Res Bool)) (.ok true) := by decide +kernel
example : same (((Date.tryFromStr .debug .number Caches.new b!"Jan-08-99" DateOrder.mdy).bind fun x => Date.format .debug junk x DateStyle.iso DateOrder.ymd) : Res Bytes) (Res.ok b!"1999-01-08") := by decide +kernel
example : same (((Date.tryFromStr .debug .number Caches.new b!"Jan-08-99" DateOrder.dmy).bind fun x => Date.format .debug junk x DateStyle.iso DateOrder.ymd) : Res Bytes) (Res.ok b!"1999-01-08") := by decide +kernel
example : same (((Res.ok (isErr (Date.tryFromStr .debug .number Caches.new b!"Jan-08-99" DateOrder.ymd))) : Res Bool)) (.ok true) := by decide +kernel
example : same (((Date.tryFromStr .debug .number Caches.new b!"19990108" DateOrder.mdy).bind fun x => Date.format .debug junk x DateStyle.iso DateOrder.ymd) : Res Bytes) (Res.ok b!"1999-01-08") := by decide +kernel
example : same (((Date.tryFromStr .debug .number Caches.new b!"990108" DateOrder.mdy).bind fun x => Date.format .debug junk x DateStyle.iso DateOrder.ymd) : Res Bytes) (Res.ok b!"1999-01-08") := by decide +kernel
example : same (((Date.tryFromStr .debug .number Caches.new b!"1999.008" DateOrder.mdy).bind fun x => Date.format .debug junk x DateStyle.iso DateOrder.ymd) : Res Bytes) (Res.ok b!"1999-01-08") := by decide +kernel
example : same (((Date.tryFromStr .debug .number Caches.new b!"J2451187" DateOrder.mdy).bind fun x => Date.format .debug junk x DateStyle.iso DateOrder.ymd) : Res Bytes) (Res.ok b!"1999-01-08") := by decide +kernel
example : same (((Date.tryFromStr .debug .number Caches.new b!"January 8, 99 BC" DateOrder.mdy).bind fun x => Date.format .debug junk x DateStyle.iso DateOrder.ymd) : Res Bytes) (Res.ok b!"0099-01-08 BC") := by decide +kernel
example : same (((Res.ok (isErr (Date.tryFromStr .debug .number Caches.new b!"-*u1981" DateOrder.mdy))) : Res Bool)) (.ok true) := by decide +kernel
example : same (((Res.ok (isErr (Date.tryFromStr .debug .number Caches.new b!"test 8, 1999" DateOrder.mdy))) : Res Bool)) (.ok true) := by decide +kernel
example : same (((Date.tryFromStr .debug .number Caches.new b!"January 1, 4713 BC" DateOrder.mdy).bind fun x => Date.format .debug junk x DateStyle.iso DateOrder.ymd) : Res Bytes) (Res.ok b!"4713-01-01 BC") := by decide +kernel
example : same (((Date.tryFromStr .debug .number Caches.new b!"5874897-12-31" DateOrder.mdy).bind fun x => Date.format .debug junk x DateStyle.iso DateOrder.ymd) : Res Bytes) (Res.ok b!"5874897-12-31") := by decide +kernel
example : same (((Res.ok (isErr (Date.tryFromStr .debug .number Caches.new b!"January 1, 4714 BC" DateOrder.mdy))) : Res Bool)) (.ok true) := by decide +kernel
example : same (((Res.ok (isErr (Date.tryFromStr .debug .number Caches.new b!"5874898-2-1" DateOrder.mdy))) : Res Bool)) (.ok true) := by decide +kernel
example : same (((Date.tryFromYmd .debug (2020) (12) (23)).bind fun x => Date.format .debug junk x DateStyle.iso DateOrder.ymd) : Res Bytes) (Res.ok b!"2020-12-23") := by decide +kernel
example : same (((Date.tryFromYmd .debug (-2020) (12) (23)).bind fun x => Date.format .debug junk x DateStyle.iso DateOrder.ymd) : Res Bytes) (Res.ok b!"2020-12-23 BC") := by decide +kernel
example : same (((Res.ok (isErr (Date.tryFromYmd .debug (2147483647) (2147483647) (2147483647)))) : Res Bool)) (.ok true) := by decide +kernel
example : same (((Res.ok (isErr (Date.tryFromYmd .debug (5874899) (0) (0)))) : Res Bool)) (.ok true) := by decide +kernel
example : same (((Date.tryFromStr .debug .number Caches.new b!"2116-9-10" DateOrder.ymd).bind fun x => Date.datePart .debug x FieldType.unit DateUnit.millennium) : Res F64) (Res.ok (F64.rnd ((30 : Int) / (10 : Int) : Rat))) := by decide +kernel
example : same (((Date.tryFromStr .debug .number Caches.new b!"2116-9-10" DateOrder.ymd).bind fun x => Date.datePart .debug x FieldType.unit DateUnit.century) : Res F64) (Res.ok (F64.rnd ((220 : Int) / (10 : Int) : Rat))) := by decide +kernel
example : same (((Date.tryFromStr .debug .number Caches.new b!"2116-9-10" DateOrder.ymd).bind fun x => Date.datePart .debug x FieldType.unit DateUnit.decade) : Res F64) (Res.ok (F64.rnd ((2110 : Int) / (10 : Int) : Rat))) := by decide +kernel
example : same (((Date.tryFromStr .debug .number Caches.new b!"2116-9-10" DateOrder.ymd).bind fun x => Date.datePart .debug x FieldType.unit DateUnit.year) : Res F64) (Res.ok (F64.rnd ((21160 : Int) / (10 : Int) : Rat))) := by decide +kernel
example : same ((((Date.tryFromStr .debug .number Caches.new b!"2116-9-10" DateOrder.ymd).bind fun x => Date.truncate .debug x FieldType.unit DateUnit.millennium).bind fun x => Date.format .debug junk x DateStyle.iso DateOrder.ymd) : Res Bytes) (Res.ok b!"2001-01-01") := by decide +kernel
example : same ((((Date.tryFromStr .debug .number Caches.new b!"2116-9-10" DateOrder.ymd).bind fun x => Date.truncate .debug x FieldType.unit DateUnit.century).bind fun x => Date.format .debug junk x DateStyle.iso DateOrder.ymd) : Res Bytes) (Res.ok b!"2101-01-01") := by decide +kernel
example : same ((((Date.tryFromStr .debug .number Caches.new b!"2116-9-10" DateOrder.ymd).bind fun x => Date.truncate .debug x FieldType.unit DateUnit.decade).bind fun x => Date.format .debug junk x DateStyle.iso DateOrder.ymd) : Res Bytes) (Res.ok b!"2110-01-01") := by decide +kernel
example : same ((((Date.tryFromStr .debug .number Caches.new b!"2116-9-10" DateOrder.ymd).bind fun x => Date.truncate .debug x FieldType.unit DateUnit.year).bind fun x => Date.format .debug junk x DateStyle.iso DateOrder.ymd) : Res Bytes) (Res.ok b!"2116-01-01") := by decide +kernel
example : same ((((Date.tryFromStr .debug .number Caches.new b!"2116-9-10" DateOrder.ymd).bind fun x => Date.truncate .debug x FieldType.unit DateUnit.quarter).bind fun x => Date.format .debug junk x DateStyle.iso DateOrder.ymd) : Res Bytes) (Res.ok b!"2116-07-01") := by decide +kernel
example : same ((((Date.tryFromStr .debug .number Caches.new b!"2116-9-10" DateOrder.ymd).bind fun x => Date.truncate .debug x FieldType.unit DateUnit.month).bind fun x => Date.format .debug junk x DateStyle.iso DateOrder.ymd) : Res Bytes) (Res.ok b!"2116-09-01") := by decide +kernel
example : same ((((Date.tryFromStr .debug .number Caches.new b!"2116-9-10" DateOrder.ymd).bind fun x => Date.truncate .debug x FieldType.unit DateUnit.day).bind fun x => Date.format .debug junk x DateStyle.iso DateOrder.ymd) : Res Bytes) (Res.ok b!"2116-09-10") := by decide +kernel
example : same ((((Date.tryFromStr .debug .number Caches.new b!"2116-9-10" DateOrder.ymd).bind fun x => Res.ok (!Date.isInfinite x)) : Res Bool)) (.ok true) := by decide +kernel
example : same ((((Res.ok (⟨(-2147483648)⟩ : Date)).bind fun x => Res.ok (Date.isInfinite x)) : Res Bool)) (.ok true) := by decide +kernel
example : same ((Res.ok b!"2000-10-01") : Res Bytes) ((Date.tryFromYmd .debug (2000) (10) (1)).bind fun x => Date.format .debug junk x DateStyle.iso DateOrder.ymd) := by decide +kernel
example : same (((Res.ok (isErr (Time.tryFromStr .debug .number Caches.new b!"PST" (3) DateOrder.ymd))) : Res Bool)) (.ok true) := by decide +kernel
example : same (((Res.ok (isErr (Time.tryFromStr .debug .number Caches.new b!"azot" (3) DateOrder.ymd))) : Res Bool)) (.ok true) := by decide +kernel
example : same (((Res.ok (isErr (Time.tryFromStr .debug .number Caches.new b!"10.2 2010-10" (3) DateOrder.ymd))) : Res Bool)) (.ok true) := by decide +kernel
example : same (((Res.ok (isErr (Time.tryFromStr .debug .number Caches.new b!"dow345" (-1) DateOrder.mdy))) : Res Bool)) (.ok true) := by decide +kernel
example : same (((Res.ok (isErr (Time.tryFromStr .debug .number Caches.new b!"j-345" (-1) DateOrder.mdy))) : Res Bool)) (.ok true) := by decide +kernel
example : same (((Res.ok (isErr (Time.tryFromStr .debug .number Caches.new b!"azot45" (-1) DateOrder.mdy))) : Res Bool)) (.ok true) := by decide +kernel
example : same (((Res.ok (isErr (Time.tryFromStr .debug .number Caches.new b!"y1989m3d10.45" (-1) DateOrder.mdy))) : Res Bool)) (.ok true) := by decide +kernel
example : same (((Time.tryFromStr .debug .number Caches.new b!"allballs" (3) DateOrder.ymd).bind fun x => Time.format .debug junk x DateStyle.iso) : Res Bytes) (Res.ok b!"00:00:00") := by decide +kernel
example : same (((Time.tryFromStr .debug .number Caches.new b!"2010-10-10 04:05 PM" (3) DateOrder.ymd).bind fun x => Time.format .debug junk x DateStyle.iso) : Res Bytes) (Res.ok b!"16:05:00") := by decide +kernel
example : same (((Time.tryFromStr .debug .number Caches.new b!"040506" (3) DateOrder.ymd).bind fun x => Time.format .debug junk x DateStyle.iso) : Res Bytes) (Res.ok b!"04:05:06") := by decide +kernel
example : same (((Time.tryFromStr .debug .number Caches.new b!"040506.456" (3) DateOrder.ymd).bind fun x => Time.format .debug junk x DateStyle.iso) : Res Bytes) (Res.ok b!"04:05:06.456") := by decide +kernel
example : same (((Time.tryFromStr .debug .number Caches.new b!"y1989m3d10h12mm30s20.4567" (-1) DateOrder.mdy).bind fun x => Time.format .debug junk x DateStyle.iso) : Res Bytes) (Res.ok b!"12:30:20.4567") := by decide +kernel
example : same (((Time.tryFromStr .debug .number Caches.new b!"y1989m3d10h12m30s20.4567" (-1) DateOrder.mdy).bind fun x => Time.format .debug junk x DateStyle.iso) : Res Bytes) (Res.ok b!"12:30:20.4567") := by decide +kernel
example : same (((Time.tryFromStr .debug .number Caches.new b!"J2451187.345" (-1) DateOrder.mdy).bind fun x => Time.format .debug junk x DateStyle.iso) : Res Bytes) (Res.ok b!"08:16:47.999999") := by decide +kernel
example : same (((Res.ok (isErr (Time.tryFromStr .debug .number Caches.new b!"+567h" (3) DateOrder.ymd))) : Res Bool)) (.ok true) := by decide +kernel
example : same (((Res.ok (isErr (Time.tryFromStr .debug .number Caches.new b!"+567h" (3) DateOrder.ymd))) : Res Bool)) (.ok true) := by decide +kernel
example : same (((Res.ok (isErr (Time.tryFromStr .debug .number Caches.new b!"4 hours 5 minutes" (3) DateOrder.ymd))) : Res Bool)) (.ok true) := by decide +kernel
example : same (((Res.ok (isErr (Time.tryFromStr .debug .number Caches.new b!".2344" (3) DateOrder.ymd))) : Res Bool)) (.ok true) := by decide +kernel
example : same (((Time.tryFromStr .debug .number Caches.new b!"allballs" (3) DateOrder.ymd).bind fun x => Time.format .debug junk x DateStyle.iso) : Res Bytes) (Res.ok b!"00:00:00") := by decide +kernel
example : same (((Res.ok (isErr (Time.tryFromStr .debug .number Caches.new b!"04:05:06.789t" (3) DateOrder.ymd))) : Res Bool)) (.ok true) := by decide +kernel
example : same (((Time.tryFromStr .debug .number Caches.new b!"t04:05:06.789" (3) DateOrder.ymd).bind fun x => Time.format .debug junk x DateStyle.iso) : Res Bytes) (Res.ok b!"04:05:06.789") := by decide +kernel
example : same (((Time.tryFromStr .debug .number Caches.new b!"at 04:05:06.789" (3) DateOrder.ymd).bind fun x => Time.format .debug junk x DateStyle.iso) : Res Bytes) (Res.ok b!"04:05:06.789") := by decide +kernel
example : same (((Time.tryFromStr .debug .number Caches.new b!"04:05:06" (3) DateOrder.ymd).bind fun x => Time.format .debug junk x DateStyle.iso) : Res Bytes) (Res.ok b!"04:05:06") := by decide +kernel
example : same (((Time.tryFromStr .debug .number Caches.new b!"04:05" (3) DateOrder.ymd).bind fun x => Time.format .debug junk x DateStyle.iso) : Res Bytes) (Res.ok b!"04:05:00") := by decide +kernel
example : same (((Time.tryFromStr .debug .number Caches.new b!"04:05.234" (3) DateOrder.ymd).bind fun x => Time.format .debug junk x DateStyle.iso) : Res Bytes) (Res.ok b!"00:04:05.234") := by decide +kernel
example : same (((Time.tryFromStr .debug .number Caches.new b!"040506" (3) DateOrder.ymd).bind fun x => Time.format .debug junk x DateStyle.iso) : Res Bytes) (Res.ok b!"04:05:06") := by decide +kernel
example : same (((Time.tryFromStr .debug .number Caches.new b!"04:05 AM" (3) DateOrder.ymd).bind fun x => Time.format .debug junk x DateStyle.iso) : Res Bytes) (Res.ok b!"04:05:00") := by decide +kernel
example : same (((Time.tryFromStr .debug .number Caches.new b!"12:20:05 AM" (3) DateOrder.ymd).bind fun x => Time.format .debug junk x DateStyle.iso) : Res Bytes) (Res.ok b!"00:20:05") := by decide +kernel
example : same (((Time.tryFromStr .debug .number Caches.new b!"04:05 PM" (3) DateOrder.ymd).bind fun x => Time.format .debug junk x DateStyle.iso) : Res Bytes) (Res.ok b!"16:05:00") := by decide +kernel
example : same (((Res.ok (isErr (Time.tryFromStr .debug .number Caches.new b!"04:05:06-08:00" (3) DateOrder.ymd))) : Res Bool)) (.ok true) := by decide +kernel
example : same (((Time.tryFromStr .debug .number Caches.new b!"2010-10-10 04:05 PM" (3) DateOrder.ymd).bind fun x => Time.format .debug junk x DateStyle.iso) : Res Bytes) (Res.ok b!"16:05:00") := by decide +kernel
example : same (((Res.ok (isErr (Time.tryFromStr .debug .number Caches.new b!"14:04:05 AM" (3) DateOrder.ymd))) : Res Bool)) (.ok true) := by decide +kernel
example : same (((Res.ok (isErr (Time.tryFromStr .debug .number Caches.new b!"now" (3) DateOrder.ymd))) : Res Bool)) (.ok true) := by decide +kernel
example : same (((Res.ok (isErr (Time.tryFromStr .debug .number Caches.new b!"current" (3) DateOrder.ymd))) : Res Bool)) (.ok true) := by decide +kernel
example : same (((Res.ok (isErr (Time.tryFromStr .debug .number Caches.new b!"2003-04-12 04:05:06 America/New_York" (3) DateOrder.ymd))) : Res Bool)) (.ok true) := by decide +kernel
example : same (((Res.ok (isErr (Time.tryFromStr .debug .number Caches.new b!"2003-04-12 04:05:06 shanghai" (3) DateOrder.ymd))) : Res Bool)) (.ok true) := by decide +kernel
example : same (((Time.tryFromStr .debug .number Caches.new b!"00:00:00" (3) DateOrder.ymd).bind fun x => Time.format .debug junk x DateStyle.iso) : Res Bytes) (Res.ok b!"00:00:00") := by decide +kernel
example : same (((Time.tryFromStr .debug .number Caches.new b!"24:00:00" (3) DateOrder.ymd).bind fun x => Time.format .debug junk x DateStyle.iso) : Res Bytes) (Res.ok b!"24:00:00") := by decide +kernel
example : same (((Res.ok (isErr (Time.tryFromStr .debug .number Caches.new b!"24:00:01" (3) DateOrder.ymd))) : Res Bool)) (.ok true) := by decide +kernel
example : same (((Time.tryFromHms .debug (23) (24) (F64.rnd ((5667 : Int) / (100 : Int) : Rat))).bind fun x => Time.format .debug junk x DateStyle.iso) : Res Bytes) (Res.ok b!"23:24:56.67") := by decide +kernel
example : same (((Time.tryFromHms .debug (23) (24) (F64.rnd ((566789289 : Int) / (10000000 : Int) : Rat))).bind fun x => Time.format .debug junk x DateStyle.iso) : Res Bytes) (Res.ok b!"23:24:56.678929") := by decide +kernel
example : same (((Res.ok (isErr (Time.tryFromHms .debug (-2) (24) (F64.rnd ((5667 : Int) / (100 : Int) : Rat))))) : Res Bool)) (.ok true) := by decide +kernel
example : same (((Res.ok (isErr (Time.tryFromHms .debug (-2) (24) (F64.rnd ((5667 : Int) / (100 : Int) : Rat))))) : Res Bool)) (.ok true) := by decide +kernel
example : same (((Res.ok (isErr (Time.tryFromHms .debug (23) (-24) (F64.rnd ((5667 : Int) / (100 : Int) : Rat))))) : Res Bool)) (.ok true) := by decide +kernel
example : same (((Res.ok (isErr (Time.tryFromHms .debug (23) (24) (F64.rnd ((-5667 : Int) / (100 : Int) : Rat))))) : Res Bool)) (.ok true) := by decide +kernel
example : same (((Res.ok (isErr (Time.tryFromHms .debug (25) (24) (F64.rnd ((5667 : Int) / (100 : Int) : Rat))))) : Res Bool)) (.ok true) := by decide +kernel
example : same (((Time.tryFromHms .debug (24) (0) (F64.rnd ((0 : Int) / (10 : Int) : Rat))).bind fun x => Time.format .debug junk x DateStyle.iso) : Res Bytes) (Res.ok b!"24:00:00") := by decide +kernel
example : same (((Res.ok (isErr (Time.tryFromHms .debug (24) (1) (F64.rnd ((0 : Int) / (10 : Int) : Rat))))) : Res Bool)) (.ok true) := by decide +kernel
example : same (((Res.ok (isErr (Time.tryFromHms .debug (24) (0) (F64.rnd ((10 : Int) / (10 : Int) : Rat))))) : Res Bool)) (.ok true) := by decide +kernel
example : same (((Res.ok (isErr (Time.tryFromHms .debug (23) (60) (F64.rnd ((10 : Int) / (10 : Int) : Rat))))) : Res Bool)) (.ok true) := by decide +kernel
example : same (((Time.tryFromHms .debug (23) (10) (F64.rnd ((600 : Int) / (10 : Int) : Rat))).bind fun x => Time.format .debug junk x DateStyle.iso) : Res Bytes) (Res.ok b!"23:11:00") := by decide +kernel
example : same (((Res.ok (isErr (Time.tryFromHms .debug (23) (60) (F64.rnd ((601 : Int) / (10 : Int) : Rat))))) : Res Bool)) (.ok true) := by decide +kernel
example : same (((Time.tryFromStr .debug .number Caches.new b!"20:45:34.673452" (-1) DateOrder.ymd).bind fun x => Time.datePart .debug x FieldType.unit DateUnit.hour) : Res F64) (Res.ok (F64.rnd ((200 : Int) / (10 : Int) : Rat))) := by decide +kernel
example : same (((Time.tryFromStr .debug .number Caches.new b!"20:45:34.673452" (-1) DateOrder.ymd).bind fun x => Time.datePart .debug x FieldType.unit DateUnit.minute) : Res F64) (Res.ok (F64.rnd ((450 : Int) / (10 : Int) : Rat))) := by decide +kernel
example : same (((Time.tryFromStr .debug .number Caches.new b!"20:45:34.673452" (-1) DateOrder.ymd).bind fun x => Time.datePart .debug x FieldType.unit DateUnit.second) : Res F64) (Res.ok (F64.rnd ((34673452 : Int) / (1000000 : Int) : Rat))) := by decide +kernel
example : same (((Time.tryFromStr .debug .number Caches.new b!"20:45:34.673452" (-1) DateOrder.ymd).bind fun x => Time.datePart .debug x FieldType.unit DateUnit.millisec) : Res F64) (Res.ok (F64.rnd ((34673452 : Int) / (1000 : Int) : Rat))) := by decide +kernel
example : same (((Time.tryFromStr .debug .number Caches.new b!"20:45:34.673452" (-1) DateOrder.ymd).bind fun x => Time.datePart .debug x FieldType.unit DateUnit.microsec) : Res F64) (Res.ok (F64.rnd ((346734520 : Int) / (10 : Int) : Rat))) := by decide +kernel
example : same (((Time.tryFromStr .debug .number Caches.new b!"20:45:34.673452" (-1) DateOrder.ymd).bind fun x => Time.datePart .debug x FieldType.epoch DateUnit.epoch) : Res F64) (Res.ok (F64.rnd ((74734673452 : Int) / (1000000 : Int) : Rat))) := by decide +kernel
example : same (((Res.ok (isErr ((Time.tryFromStr .debug .number Caches.new b!"20:45:34.673452" (-1) DateOrder.ymd).bind fun x => Time.datePart .debug x FieldType.unit DateUnit.year))) : Res Bool)) (.ok true) := by decide +kernel
example : same (((Res.ok (isErr ((Time.tryFromStr .debug .number Caches.new b!"20:45:34.673452" (-1) DateOrder.ymd).bind fun x => Time.datePart .debug x FieldType.epoch DateUnit.year))) : Res Bool)) (.ok true) := by decide +kernel
example : same ((((Time.tryFromStr .debug .number Caches.new b!"20:38:40.456789" (6) DateOrder.ymd).bind fun x => Time.truncate .debug x FieldType.unit DateUnit.hour).bind fun x => Time.format .debug junk x DateStyle.iso) : Res Bytes) (Res.ok b!"20:00:00") := by decide +kernel
example : same ((((Time.tryFromStr .debug .number Caches.new b!"20:38:40.456789" (6) DateOrder.ymd).bind fun x => Time.truncate .debug x FieldType.unit DateUnit.minute).bind fun x => Time.format .debug junk x DateStyle.iso) : Res Bytes) (Res.ok b!"20:38:00") := by decide +kernel
example : same ((((Time.tryFromStr .debug .number Caches.new b!"20:38:40.456789" (6) DateOrder.ymd).bind fun x => Time.truncate .debug x FieldType.unit DateUnit.second).bind fun x => Time.format .debug junk x DateStyle.iso) : Res Bytes) (Res.ok b!"20:38:40") := by decide +kernel
example : same ((((Time.tryFromStr .debug .number Caches.new b!"20:38:40.456789" (6) DateOrder.ymd).bind fun x => Time.truncate .debug x FieldType.unit DateUnit.millisec).bind fun x => Time.format .debug junk x DateStyle.iso) : Res Bytes) (Res.ok b!"20:38:40.456") := by decide +kernel
example : same ((((Time.tryFromStr .debug .number Caches.new b!"20:38:40.456789" (6) DateOrder.ymd).bind fun x => Time.truncate .debug x FieldType.unit DateUnit.microsec).bind fun x => Time.format .debug junk x DateStyle.iso) : Res Bytes) (Res.ok b!"20:38:40.456789") := by decide +kernel
example : same ((((Res.ok (⟨-12345⟩ : Time)).bind fun x => Time.adjustByTypmod .debug x (5)).bind fun x => Time.format .debug junk x DateStyle.iso) : Res Bytes) (Res.ok b!"00:00:00.01235") := by decide +kernel
example : same (((Res.ok (isErr (Timestamp.tryFromStr .debug .number Caches.new b!"y2000m2d12t1240 am" (-2) DateOrder.mdy))) : Res Bool)) (.ok true) := by decide +kernel
example : same (((Res.ok (isErr (Timestamp.tryFromStr .debug .number Caches.new b!"y2000m2d12t1240 am" (7) DateOrder.mdy))) : Res Bool)) (.ok true) := by decide +kernel
example : same (((Res.ok (isErr (Timestamp.tryFromStr .debug .number Caches.new b!"y1" (3) DateOrder.ymd))) : Res Bool)) (.ok true) := by decide +kernel
example : same (((Res.ok (isErr (Timestamp.tryFromStr .debug .number Caches.new b!"y2000m2d12t2840 am" (-1) DateOrder.mdy))) : Res Bool)) (.ok true) := by decide +kernel
example : same (((Timestamp.tryFromStr .debug .number Caches.new b!"allballs" (-1) DateOrder.mdy).bind fun x => Timestamp.format .debug junk x DateStyle.iso DateOrder.ymd) : Res Bytes) (Res.ok b!"0002-11-30 00:00:00 BC") := by decide +kernel
example : same (((Res.ok (isErr (Timestamp.tryFromStr .debug .number Caches.new b!"current" (-1) DateOrder.mdy))) : Res Bool)) (.ok true) := by decide +kernel
example : same (((Res.ok (isErr (Timestamp.tryFromStr .debug .number Caches.new b!"y2000m12d23isodow23" (-1) DateOrder.mdy))) : Res Bool)) (.ok true) := by decide +kernel
example : same (((Res.ok (isErr (Timestamp.tryFromStr .debug .number Caches.new b!"1999-01-08 04:05:06.456db" (3) DateOrder.ymd))) : Res Bool)) (.ok true) := by decide +kernel
example : same (((Res.ok (isErr (Timestamp.tryFromStr .debug .number Caches.new b!"J-2451187" (-1) DateOrder.mdy))) : Res Bool)) (.ok true) := by decide +kernel
example : same (((Timestamp.tryFromStr .debug .number Caches.new b!"y2000m2d12t2040" (-1) DateOrder.mdy).bind fun x => Timestamp.format .debug junk x DateStyle.iso DateOrder.ymd) : Res Bytes) (Res.ok b!"2000-02-12 20:40:00") := by decide +kernel
example : same (((Timestamp.tryFromStr .debug .number Caches.new b!"y2000m2d12t1240 am" (-1) DateOrder.mdy).bind fun x => Timestamp.format .debug junk x DateStyle.iso DateOrder.ymd) : Res Bytes) (Res.ok b!"2000-02-12 00:40:00") := by decide +kernel
example : same (((Timestamp.tryFromStr .debug .number Caches.new b!"y2000m2d12t0740 pm" (-1) DateOrder.mdy).bind fun x => Timestamp.format .debug junk x DateStyle.iso DateOrder.ymd) : Res Bytes) (Res.ok b!"2000-02-12 19:40:00") := by decide +kernel
example : same (((Res.ok (isErr (Timestamp.tryFromStr .debug .number Caches.new b!"y2000m12t991223" (-1) DateOrder.mdy))) : Res Bool)) (.ok true) := by decide +kernel
example : same (((Timestamp.tryFromStr .debug .number Caches.new b!"on y1989m3d10h12m30s20.345" (-1) DateOrder.mdy).bind fun x => Timestamp.format .debug junk x DateStyle.iso DateOrder.ymd) : Res Bytes) (Res.ok b!"1989-03-10 12:30:20.345") := by decide +kernel
example : same (((Timestamp.tryFromStr .debug .number Caches.new b!"y1989m3d10h12m30s20.345" (-1) DateOrder.mdy).bind fun x => Timestamp.format .debug junk x DateStyle.iso DateOrder.ymd) : Res Bytes) (Res.ok b!"1989-03-10 12:30:20.345") := by decide +kernel
example : same (((Timestamp.tryFromStr .debug .number Caches.new b!"y1989m3d10h12mm30s20.345" (-1) DateOrder.mdy).bind fun x => Timestamp.format .debug junk x DateStyle.iso DateOrder.ymd) : Res Bytes) (Res.ok b!"1989-03-10 12:30:20.345") := by decide +kernel
example : same (((Timestamp.tryFromStr .debug .number Caches.new b!"J2451187.345" (-1) DateOrder.mdy).bind fun x => Timestamp.format .debug junk x DateStyle.iso DateOrder.ymd) : Res Bytes) (Res.ok b!"1999-01-08 08:16:47.999999") := by decide +kernel
example : same (((Timestamp.tryFromStr .debug .number Caches.new b!"1999-01-08 040506.456789" (3) DateOrder.ymd).bind fun x => Timestamp.format .debug junk x DateStyle.iso DateOrder.ymd) : Res Bytes) (Res.ok b!"1999-01-08 04:05:06.457") := by decide +kernel
example : same (((Timestamp.tryFromStr .debug .number Caches.new b!"1999-01-08 040506.4567878" (6) DateOrder.ymd).bind fun x => Timestamp.format .debug junk x DateStyle.iso DateOrder.ymd) : Res Bytes) (Res.ok b!"1999-01-08 04:05:06.456788") := by decide +kernel
example : same (((Timestamp.tryFromStr .debug .number Caches.new b!"1999-01-08 0405" (3) DateOrder.ymd).bind fun x => Timestamp.format .debug junk x DateStyle.iso DateOrder.ymd) : Res Bytes) (Res.ok b!"1999-01-08 04:05:00") := by decide +kernel
example : same (((Timestamp.tryFromStr .debug .number Caches.new b!"1999-01-08 04:05:06.456" (3) DateOrder.ymd).bind fun x => Timestamp.format .debug junk x DateStyle.iso DateOrder.ymd) : Res Bytes) (Res.ok b!"1999-01-08 04:05:06.456") := by decide +kernel
example : same (((Timestamp.tryFromStr .debug .number Caches.new b!"1999-01-08 04:05:06.456" (3) DateOrder.ymd).bind fun x => Timestamp.format .debug junk x DateStyle.postgres DateOrder.ymd) : Res Bytes) (Res.ok b!"Fri Jan 08 04:05:06.456 1999") := by decide +kernel
example : same (((Timestamp.tryFromStr .debug .number Caches.new b!"1999-01-08 04:05:06.456" (3) DateOrder.ymd).bind fun x => Timestamp.format .debug junk x DateStyle.postgres DateOrder.dmy) : Res Bytes) (Res.ok b!"Fri 08 Jan 04:05:06.456 1999") := by decide +kernel
example : same (((Timestamp.tryFromStr .debug .number Caches.new b!"1999-01-08 04:05:06.456" (3) DateOrder.ymd).bind fun x => Timestamp.format .debug junk x DateStyle.sql DateOrder.ymd) : Res Bytes) (Res.ok b!"01/08/1999 04:05:06.456") := by decide +kernel
example : same (((Timestamp.tryFromStr .debug .number Caches.new b!"1999-01-08 04:05:06.456" (3) DateOrder.ymd).bind fun x => Timestamp.format .debug junk x DateStyle.sql DateOrder.dmy) : Res Bytes) (Res.ok b!"08/01/1999 04:05:06.456") := by decide +kernel
example : same (((Timestamp.tryFromStr .debug .number Caches.new b!"1999-01-08 04:05:06.456" (3) DateOrder.ymd).bind fun x => Timestamp.format .debug junk x DateStyle.german DateOrder.dmy) : Res Bytes) (Res.ok b!"08.01.1999 04:05:06.456") := by decide +kernel
example : same (((Timestamp.tryFromStr .debug .number Caches.new b!"1999-01-08 04:05:06.456" (3) DateOrder.ymd).bind fun x => Timestamp.format .debug junk x DateStyle.german DateOrder.ymd) : Res Bytes) (Res.ok b!"08.01.1999 04:05:06.456") := by decide +kernel
example : same (((Timestamp.tryFromStr .debug .number Caches.new b!"1999-01-08 04:05:06.456" (3) DateOrder.ymd).bind fun x => Timestamp.format .debug junk x DateStyle.xsd DateOrder.ymd) : Res Bytes) (Res.ok b!"1999-01-08T04:05:06.456") := by decide +kernel
example : same (((Timestamp.tryFromStr .debug .number Caches.new b!"08.01.1999 04:05:06.456" (6) DateOrder.mdy).bind fun x => Timestamp.format .debug junk x DateStyle.xsd DateOrder.ymd) : Res Bytes) (Res.ok b!"1999-08-01T04:05:06.456") := by decide +kernel
example : same (((Timestamp.tryFromStr .debug .number Caches.new b!"1999-01-08T04:05:06.456" (6) DateOrder.ymd).bind fun x => Timestamp.format .debug junk x DateStyle.xsd DateOrder.ymd) : Res Bytes) (Res.ok b!"1999-01-08T04:05:06.456") := by decide +kernel
example : same (((Timestamp.tryFromStr .debug .number Caches.new b!"Fri 08 Jan 04:05:06.4561289 1999" (6) DateOrder.dmy).bind fun x => Timestamp.format .debug junk x DateStyle.xsd DateOrder.ymd) : Res Bytes) (Res.ok b!"1999-01-08T04:05:06.456129") := by decide +kernel
example : same (((Timestamp.tryFromStr .debug .number Caches.new b!"Fri 08 Jan 04:05:06.4561289 1999" (0) DateOrder.dmy).bind fun x => Timestamp.format .debug junk x DateStyle.xsd DateOrder.ymd) : Res Bytes) (Res.ok b!"1999-01-08T04:05:06") := by decide +kernel
example : same (((Timestamp.tryFromStr .debug .number Caches.new b!"Fri 08 Jan 04:05:06.4561289 1999" (2) DateOrder.dmy).bind fun x => Timestamp.format .debug junk x DateStyle.xsd DateOrder.ymd) : Res Bytes) (Res.ok b!"1999-01-08T04:05:06.46") := by decide +kernel
example : same (((Timestamp.tryFromStr .debug .number Caches.new b!"infinity" (3) DateOrder.ymd).bind fun x => Timestamp.format .debug junk x DateStyle.iso DateOrder.ymd) : Res Bytes) (Res.ok b!"infinity") := by decide +kernel
example : same (((Timestamp.tryFromStr .debug .number Caches.new b!"-infinity" (3) DateOrder.ymd).bind fun x => Timestamp.format .debug junk x DateStyle.iso DateOrder.ymd) : Res Bytes) (Res.ok b!"-infinity") := by decide +kernel
example : same (((Timestamp.tryFromStr .debug .number Caches.new b!"4713-01-01 00:00:00 bc" (3) DateOrder.ymd).bind fun x => Timestamp.format .debug junk x DateStyle.iso DateOrder.ymd) : Res Bytes) (Res.ok b!"4713-01-01 00:00:00 BC") := by decide +kernel
example : same (((Timestamp.tryFromStr .debug .number Caches.new b!"294276-12-31 23:59:59" (3) DateOrder.ymd).bind fun x => Timestamp.format .debug junk x DateStyle.iso DateOrder.ymd) : Res Bytes) (Res.ok b!"294276-12-31 23:59:59") := by decide +kernel
example : same (((Timestamp.tryFromStr .debug .number Caches.new b!"4714-12-31 24:00:00 bc" (3) DateOrder.ymd).bind fun x => Timestamp.format .debug junk x DateStyle.iso DateOrder.ymd) : Res Bytes) (Res.ok b!"4713-01-01 00:00:00 BC") := by decide +kernel
example : same (((Res.ok (isErr (Timestamp.tryFromStr .debug .number Caches.new b!"4715-01-01 01:00:00 bc" (3) DateOrder.ymd))) : Res Bool)) (.ok true) := by decide +kernel
example : same (((Res.ok (isErr (Timestamp.tryFromStr .debug .number Caches.new b!"294276-12-31 24:00:00" (3) DateOrder.ymd))) : Res Bool)) (.ok true) := by decide +kernel
example : same (((Timestamp.tryFromYmdHms .debug (2015) (2) (20) (12) (23) (F64.rnd ((345678998 : Int) / (10000000 : Int) : Rat))).bind fun x => Timestamp.format .debug junk x DateStyle.iso DateOrder.ymd) : Res Bytes) (Res.ok b!"2015-02-20 12:23:34.5679") := by decide +kernel
example : same (((Timestamp.tryFromYmdHms .debug (2015) (2) (20) (12) (23) (F64.rnd ((600 : Int) / (10 : Int) : Rat))).bind fun x => Timestamp.format .debug junk x DateStyle.iso DateOrder.ymd) : Res Bytes) (Res.ok b!"2015-02-20 12:24:00") := by decide +kernel
example : same (((Timestamp.tryFromYmdHms .debug (2015) (1) (20) (12) (23) (F64.rnd ((345678998 : Int) / (10000000 : Int) : Rat))).bind fun x => Timestamp.format .debug junk x DateStyle.iso DateOrder.ymd) : Res Bytes) (Res.ok b!"2015-01-20 12:23:34.5679") := by decide +kernel
example : same (((Timestamp.tryFromYmdHms .debug (2015) (12) (20) (12) (23) (F64.rnd ((345678998 : Int) / (10000000 : Int) : Rat))).bind fun x => Timestamp.format .debug junk x DateStyle.iso DateOrder.ymd) : Res Bytes) (Res.ok b!"2015-12-20 12:23:34.5679") := by decide +kernel
example : same (((Timestamp.tryFromYmdHms .debug (2015) (12) (1) (12) (23) (F64.rnd ((345678998 : Int) / (10000000 : Int) : Rat))).bind fun x => Timestamp.format .debug junk x DateStyle.iso DateOrder.ymd) : Res Bytes) (Res.ok b!"2015-12-01 12:23:34.5679") := by decide +kernel
example : same (((Timestamp.tryFromYmdHms .debug (2015) (12) (31) (12) (23) (F64.rnd ((345678998 : Int) / (10000000 : Int) : Rat))).bind fun x => Timestamp.format .debug junk x DateStyle.iso DateOrder.ymd) : Res Bytes) (Res.ok b!"2015-12-31 12:23:34.5679") := by decide +kernel
example : same (((Timestamp.tryFromYmdHms .debug (2015) (12) (31) (0) (0) (F64.rnd ((0 : Int) / (10 : Int) : Rat))).bind fun x => Timestamp.format .debug junk x DateStyle.iso DateOrder.ymd) : Res Bytes) (Res.ok b!"2015-12-31 00:00:00") := by decide +kernel
example : same (((Timestamp.tryFromYmdHms .debug (2015) (12) (31) (0) (59) (F64.rnd ((0 : Int) / (10 : Int) : Rat))).bind fun x => Timestamp.format .debug junk x DateStyle.iso DateOrder.ymd) : Res Bytes) (Res.ok b!"2015-12-31 00:59:00") := by decide +kernel
example : same (((Timestamp.tryFromYmdHms .debug (2015) (12) (31) (0) (59) (F64.rnd ((59999999 : Int) / (1000000 : Int) : Rat))).bind fun x => Timestamp.format .debug junk x DateStyle.iso DateOrder.ymd) : Res Bytes) (Res.ok b!"2015-12-31 00:59:59.999999") := by decide +kernel
example : same (((Timestamp.tryFromYmdHms .debug (2015) (2) (20) (24) (00) (F64.rnd ((0 : Int) / (10 : Int) : Rat))).bind fun x => Timestamp.format .debug junk x DateStyle.iso DateOrder.ymd) : Res Bytes) (Res.ok b!"2015-02-21 00:00:00") := by decide +kernel
example : same (((Res.ok (isErr (Timestamp.tryFromYmdHms .debug (-2015) (2) (20) (12) (23) (F64.rnd ((300 : Int) / (10 : Int) : Rat))))) : Res Bool)) (.ok true) := by decide +kernel
example : same (((Res.ok (isErr (Timestamp.tryFromYmdHms .debug (294277) (2) (20) (12) (23) (F64.rnd ((300 : Int) / (10 : Int) : Rat))))) : Res Bool)) (.ok true) := by decide +kernel
example : same (((Res.ok (isErr (Timestamp.tryFromYmdHms .debug (2015) (0) (20) (12) (23) (F64.rnd ((300 : Int) / (10 : Int) : Rat))))) : Res Bool)) (.ok true) := by decide +kernel
example : same (((Res.ok (isErr (Timestamp.tryFromYmdHms .debug (2015) (13) (20) (12) (23) (F64.rnd ((300 : Int) / (10 : Int) : Rat))))) : Res Bool)) (.ok true) := by decide +kernel
example : same (((Res.ok (isErr (Timestamp.tryFromYmdHms .debug (2015) (1) (0) (12) (23) (F64.rnd ((300 : Int) / (10 : Int) : Rat))))) : Res Bool)) (.ok true) := by decide +kernel
example : same (((Res.ok (isErr (Timestamp.tryFromYmdHms .debug (2015) (1) (32) (12) (23) (F64.rnd ((300 : Int) / (10 : Int) : Rat))))) : Res Bool)) (.ok true) := by decide +kernel
example : same (((Res.ok (isErr (Timestamp.tryFromYmdHms .debug (2015) (1) (31) (-1) (23) (F64.rnd ((300 : Int) / (10 : Int) : Rat))))) : Res Bool)) (.ok true) := by decide +kernel
example : same (((Res.ok (isErr (Timestamp.tryFromYmdHms .debug (2015) (1) (31) (24) (23) (F64.rnd ((300 : Int) / (10 : Int) : Rat))))) : Res Bool)) (.ok true) := by decide +kernel
example : same (((Res.ok (isErr (Timestamp.tryFromYmdHms .debug (2015) (1) (31) (23) (-1) (F64.rnd ((300 : Int) / (10 : Int) : Rat))))) : Res Bool)) (.ok true) := by decide +kernel
example : same (((Res.ok (isErr (Timestamp.tryFromYmdHms .debug (2015) (1) (31) (23) (60) (F64.rnd ((300 : Int) / (10 : Int) : Rat))))) : Res Bool)) (.ok true) := by decide +kernel
example : same (((Res.ok (isErr (Timestamp.tryFromYmdHms .debug (2015) (1) (31) (23) (59) (F64.rnd ((-1 : Int) / (10 : Int) : Rat))))) : Res Bool)) (.ok true) := by decide +kernel
example : same (((Res.ok (isErr (Timestamp.tryFromYmdHms .debug (2015) (1) (31) (23) (59) (F64.rnd ((601 : Int) / (10 : Int) : Rat))))) : Res Bool)) (.ok true) := by decide +kernel
example : same ((((Timestamp.tryFromStr .debug .number Caches.new b!"2020-3-31 16:06:14.5678" (3) DateOrder.ymd).bind fun x => ((Timestamp.tryFromStr .debug .number Caches.new b!"2011-7-10 13:03:5.56798" (3) DateOrder.ymd).bind fun a0 => Timestamp.age .debug x a0)).bind fun x => Interval.format .debug junk x IntervalStyle.iso8601) : Res Bytes) (Res.ok b!"P8Y8M21DT3H3M9S") := by decide +kernel
example : same ((((Timestamp.tryFromStr .debug .number Caches.new b!"2011-7-10 13:03:5.56798" (3) DateOrder.ymd).bind fun x => ((Timestamp.tryFromStr .debug .number Caches.new b!"2020-3-31 16:06:14.5678" (3) DateOrder.ymd).bind fun a0 => Timestamp.age .debug x a0)).bind fun x => Interval.format .debug junk x IntervalStyle.iso8601) : Res Bytes) (Res.ok b!"P-8Y-8M-21DT-3H-3M-9S") := by decide +kernel
example : same (((Timestamp.tryFromStr .debug .number Caches.new b!"2001-02-16 20:38:40.4567890" (6) DateOrder.ymd).bind fun x => Timestamp.datePart .debug x FieldType.unit DateUnit.century) : Res F64) (Res.ok (F64.rnd ((210 : Int) / (10 : Int) : Rat))) := by decide +kernel
example : same (((Timestamp.tryFromStr .debug .number Caches.new b!"2001-02-16 20:38:40.4567890" (6) DateOrder.ymd).bind fun x => Timestamp.datePart .debug x FieldType.unit DateUnit.julian) : Res F64) (Res.ok (F64.rnd ((2451957860190472 : Int) / (1000000000 : Int) : Rat))) := by decide +kernel
example : same (((Timestamp.tryFromStr .debug .number Caches.new b!"2001-02-16 20:38:40.4567890" (6) DateOrder.ymd).bind fun x => Timestamp.datePart .debug x FieldType.unit DateUnit.millennium) : Res F64) (Res.ok (F64.rnd ((30 : Int) / (10 : Int) : Rat))) := by decide +kernel
example : same (((Timestamp.tryFromStr .debug .number Caches.new b!"2001-02-16 20:38:40.4567890" (6) DateOrder.ymd).bind fun x => Timestamp.datePart .debug x FieldType.unit DateUnit.decade) : Res F64) (Res.ok (F64.rnd ((2000 : Int) / (10 : Int) : Rat))) := by decide +kernel
example : same (((Timestamp.tryFromStr .debug .number Caches.new b!"2001-02-16 20:38:40.4567890" (6) DateOrder.ymd).bind fun x => Timestamp.datePart .debug x FieldType.unit DateUnit.day) : Res F64) (Res.ok (F64.rnd ((160 : Int) / (10 : Int) : Rat))) := by decide +kernel
example : same (((Timestamp.tryFromStr .debug .number Caches.new b!"2001-02-16 20:38:40.4567890" (6) DateOrder.ymd).bind fun x => Timestamp.datePart .debug x FieldType.unit DateUnit.dow) : Res F64) (Res.ok (F64.rnd ((50 : Int) / (10 : Int) : Rat))) := by decide +kernel
example : same (((Timestamp.tryFromStr .debug .number Caches.new b!"2001-02-16 20:38:40.4567890" (6) DateOrder.ymd).bind fun x => Timestamp.datePart .debug x FieldType.unit DateUnit.doy) : Res F64) (Res.ok (F64.rnd ((470 : Int) / (10 : Int) : Rat))) := by decide +kernel
example : same (((Timestamp.tryFromStr .debug .number Caches.new b!"2001-02-16 20:38:40.4567890" (6) DateOrder.ymd).bind fun x => Timestamp.datePart .debug x FieldType.unit DateUnit.isoDow) : Res F64) (Res.ok (F64.rnd ((50 : Int) / (10 : Int) : Rat))) := by decide +kernel
example : same (((Timestamp.tryFromStr .debug .number Caches.new b!"2001-02-16 20:38:40.4567890" (6) DateOrder.ymd).bind fun x => Timestamp.datePart .debug x FieldType.unit DateUnit.isoYear) : Res F64) (Res.ok (F64.rnd ((20010 : Int) / (10 : Int) : Rat))) := by decide +kernel
example : same (((Res.ok (isErr ((Timestamp.tryFromStr .debug .number Caches.new b!"2001-02-16 20:38:40.4567890" (6) DateOrder.ymd).bind fun x => Timestamp.datePart .debug x FieldType.epoch DateUnit.epoch))) : Res Bool)) (.ok true) := by decide +kernel
example : same (((Timestamp.tryFromStr .debug .number Caches.new b!"2001-02-16 20:38:40.4567890" (6) DateOrder.ymd).bind fun x => Timestamp.datePart .debug x FieldType.unit DateUnit.hour) : Res F64) (Res.ok (F64.rnd ((200 : Int) / (10 : Int) : Rat))) := by decide +kernel
example : same (((Timestamp.tryFromStr .debug .number Caches.new b!"2001-02-16 20:38:40.4567890" (6) DateOrder.ymd).bind fun x => Timestamp.datePart .debug x FieldType.unit DateUnit.minute) : Res F64) (Res.ok (F64.rnd ((380 : Int) / (10 : Int) : Rat))) := by decide +kernel
example : same (((Timestamp.tryFromStr .debug .number Caches.new b!"2001-02-16 20:38:40.4567890" (6) DateOrder.ymd).bind fun x => Timestamp.datePart .debug x FieldType.unit DateUnit.second) : Res F64) (Res.ok (F64.rnd ((40456789 : Int) / (1000000 : Int) : Rat))) := by decide +kernel
example : same (((Timestamp.tryFromStr .debug .number Caches.new b!"2001-02-16 20:38:40.4567890" (6) DateOrder.ymd).bind fun x => Timestamp.datePart .debug x FieldType.unit DateUnit.millisec) : Res F64) (Res.ok (F64.rnd ((40456789 : Int) / (1000 : Int) : Rat))) := by decide +kernel
example : same (((Timestamp.tryFromStr .debug .number Caches.new b!"2001-02-16 20:38:40.4567890" (6) DateOrder.ymd).bind fun x => Timestamp.datePart .debug x FieldType.unit DateUnit.microsec) : Res F64) (Res.ok (F64.rnd ((404567890 : Int) / (10 : Int) : Rat))) := by decide +kernel
example : same (((Timestamp.tryFromStr .debug .number Caches.new b!"2001-02-16 20:38:40.4567890" (6) DateOrder.ymd).bind fun x => Timestamp.datePart .debug x FieldType.unit DateUnit.month) : Res F64) (Res.ok (F64.rnd ((20 : Int) / (10 : Int) : Rat))) := by decide +kernel
example : same (((Timestamp.tryFromStr .debug .number Caches.new b!"2001-02-16 20:38:40.4567890" (6) DateOrder.ymd).bind fun x => Timestamp.datePart .debug x FieldType.unit DateUnit.quarter) : Res F64) (Res.ok (F64.rnd ((10 : Int) / (10 : Int) : Rat))) := by decide +kernel
example : same (((Timestamp.tryFromStr .debug .number Caches.new b!"2001-02-16 20:38:40.4567890" (6) DateOrder.ymd).bind fun x => Timestamp.datePart .debug x FieldType.unit DateUnit.week) : Res F64) (Res.ok (F64.rnd ((70 : Int) / (10 : Int) : Rat))) := by decide +kernel
example : same (((Timestamp.tryFromStr .debug .number Caches.new b!"2001-02-16 20:38:40.4567890" (6) DateOrder.ymd).bind fun x => Timestamp.datePart .debug x FieldType.unit DateUnit.year) : Res F64) (Res.ok (F64.rnd ((20010 : Int) / (10 : Int) : Rat))) := by decide +kernel
example : same (((Res.ok (isErr ((Timestamp.tryFromStr .debug .number Caches.new b!"2001-02-16 20:38:40.4567890" (6) DateOrder.ymd).bind fun x => Timestamp.datePart .debug x FieldType.epoch DateUnit.epoch))) : Res Bool)) (.ok true) := by decide +kernel
example : same (((Res.ok (isErr ((Timestamp.tryFromStr .debug .number Caches.new b!"2001-02-16 20:38:40.4567890" (6) DateOrder.ymd).bind fun x => Timestamp.datePart .debug x FieldType.epoch DateUnit.day))) : Res Bool)) (.ok true) := by decide +kernel
example : same (((Timestamp.tryFromStr .debug .number Caches.new b!"infinity" (6) DateOrder.ymd).bind fun x => Timestamp.datePart .debug x FieldType.unit DateUnit.century) : Res F64) (Res.ok (F64.inf false)) := by decide +kernel
example : same (((Timestamp.tryFromStr .debug .number Caches.new b!"infinity" (6) DateOrder.ymd).bind fun x => Timestamp.datePart .debug x FieldType.unit DateUnit.millennium) : Res F64) (Res.ok (F64.inf false)) := by decide +kernel
example : same (((Timestamp.tryFromStr .debug .number Caches.new b!"infinity" (6) DateOrder.ymd).bind fun x => Timestamp.datePart .debug x FieldType.unit DateUnit.decade) : Res F64) (Res.ok (F64.inf false)) := by decide +kernel
example : same (((Timestamp.tryFromStr .debug .number Caches.new b!"infinity" (6) DateOrder.ymd).bind fun x => Timestamp.datePart .debug x FieldType.unit DateUnit.day) : Res F64) (Res.ok (F64.rnd ((0 : Int) / (10 : Int) : Rat))) := by decide +kernel
example : same (((Timestamp.tryFromStr .debug .number Caches.new b!"infinity" (6) DateOrder.ymd).bind fun x => Timestamp.datePart .debug x FieldType.unit DateUnit.dow) : Res F64) (Res.ok (F64.rnd ((0 : Int) / (10 : Int) : Rat))) := by decide +kernel
example : same (((Timestamp.tryFromStr .debug .number Caches.new b!"infinity" (6) DateOrder.ymd).bind fun x => Timestamp.datePart .debug x FieldType.unit DateUnit.doy) : Res F64) (Res.ok (F64.rnd ((0 : Int) / (10 : Int) : Rat))) := by decide +kernel
example : same (((Timestamp.tryFromStr .debug .number Caches.new b!"infinity" (6) DateOrder.ymd).bind fun x => Timestamp.datePart .debug x FieldType.unit DateUnit.isoDow) : Res F64) (Res.ok (F64.rnd ((0 : Int) / (10 : Int) : Rat))) := by decide +kernel
example : same (((Timestamp.tryFromStr .debug .number Caches.new b!"infinity" (6) DateOrder.ymd).bind fun x => Timestamp.datePart .debug x FieldType.unit DateUnit.isoYear) : Res F64) (Res.ok (F64.inf false)) := by decide +kernel
example : same (((Timestamp.tryFromStr .debug .number Caches.new b!"infinity" (6) DateOrder.ymd).bind fun x => Timestamp.datePart .debug x FieldType.epoch DateUnit.epoch) : Res F64) (Res.ok (F64.inf false)) := by decide +kernel
example : same (((Timestamp.tryFromStr .debug .number Caches.new b!"infinity" (6) DateOrder.ymd).bind fun x => Timestamp.datePart .debug x FieldType.unit DateUnit.hour) : Res F64) (Res.ok (F64.rnd ((0 : Int) / (10 : Int) : Rat))) := by decide +kernel
example : same (((Timestamp.tryFromStr .debug .number Caches.new b!"infinity" (6) DateOrder.ymd).bind fun x => Timestamp.datePart .debug x FieldType.unit DateUnit.minute) : Res F64) (Res.ok (F64.rnd ((0 : Int) / (10 : Int) : Rat))) := by decide +kernel
example : same (((Timestamp.tryFromStr .debug .number Caches.new b!"infinity" (6) DateOrder.ymd).bind fun x => Timestamp.datePart .debug x FieldType.unit DateUnit.second) : Res F64) (Res.ok (F64.rnd ((0 : Int) / (10 : Int) : Rat))) := by decide +kernel
example : same (((Timestamp.tryFromStr .debug .number Caches.new b!"infinity" (6) DateOrder.ymd).bind fun x => Timestamp.datePart .debug x FieldType.unit DateUnit.millisec) : Res F64) (Res.ok (F64.rnd ((0 : Int) / (10 : Int) : Rat))) := by decide +kernel
example : same (((Timestamp.tryFromStr .debug .number Caches.new b!"infinity" (6) DateOrder.ymd).bind fun x => Timestamp.datePart .debug x FieldType.unit DateUnit.microsec) : Res F64) (Res.ok (F64.rnd ((0 : Int) / (10 : Int) : Rat))) := by decide +kernel
example : same (((Timestamp.tryFromStr .debug .number Caches.new b!"infinity" (6) DateOrder.ymd).bind fun x => Timestamp.datePart .debug x FieldType.unit DateUnit.month) : Res F64) (Res.ok (F64.rnd ((0 : Int) / (10 : Int) : Rat))) := by decide +kernel
example : same (((Timestamp.tryFromStr .debug .number Caches.new b!"infinity" (6) DateOrder.ymd).bind fun x => Timestamp.datePart .debug x FieldType.unit DateUnit.quarter) : Res F64) (Res.ok (F64.rnd ((0 : Int) / (10 : Int) : Rat))) := by decide +kernel
example : same (((Timestamp.tryFromStr .debug .number Caches.new b!"infinity" (6) DateOrder.ymd).bind fun x => Timestamp.datePart .debug x FieldType.unit DateUnit.week) : Res F64) (Res.ok (F64.rnd ((0 : Int) / (10 : Int) : Rat))) := by decide +kernel
example : same (((Timestamp.tryFromStr .debug .number Caches.new b!"infinity" (6) DateOrder.ymd).bind fun x => Timestamp.datePart .debug x FieldType.unit DateUnit.year) : Res F64) (Res.ok (F64.inf false)) := by decide +kernel
example : same (((Timestamp.tryFromStr .debug .number Caches.new b!"infinity" (6) DateOrder.ymd).bind fun x => Timestamp.datePart .debug x FieldType.unit DateUnit.julian) : Res F64) (Res.ok (F64.inf false)) := by decide +kernel
example : same (((Timestamp.tryFromStr .debug .number Caches.new b!"-infinity" (6) DateOrder.ymd).bind fun x => Timestamp.datePart .debug x FieldType.unit DateUnit.century) : Res F64) (Res.ok (F64.inf true)) := by decide +kernel
example : same (((Timestamp.tryFromStr .debug .number Caches.new b!"infinity" (6) DateOrder.ymd).bind fun x => Timestamp.datePart .debug x FieldType.unit DateUnit.century) : Res F64) (Res.ok (F64.inf false)) := by decide +kernel
example : same ((((Timestamp.tryFromStr .debug .number Caches.new b!"2116-02-16 20:38:40.4567890" (6) DateOrder.ymd).bind fun x => Timestamp.truncate .debug x FieldType.unit DateUnit.millennium).bind fun x => Timestamp.format .debug junk x DateStyle.iso DateOrder.ymd) : Res Bytes) (Res.ok b!"2001-01-01 00:00:00") := by decide +kernel
example : same ((((Timestamp.tryFromStr .debug .number Caches.new b!"2116-02-16 20:38:40.4567890" (6) DateOrder.ymd).bind fun x => Timestamp.truncate .debug x FieldType.unit DateUnit.century).bind fun x => Timestamp.format .debug junk x DateStyle.iso DateOrder.ymd) : Res Bytes) (Res.ok b!"2101-01-01 00:00:00") := by decide +kernel
example : same ((((Timestamp.tryFromStr .debug .number Caches.new b!"2116-02-16 20:38:40.4567890" (6) DateOrder.ymd).bind fun x => Timestamp.truncate .debug x FieldType.unit DateUnit.decade).bind fun x => Timestamp.format .debug junk x DateStyle.iso DateOrder.ymd) : Res Bytes) (Res.ok b!"2110-01-01 00:00:00") := by decide +kernel
example : same ((((Timestamp.tryFromStr .debug .number Caches.new b!"2116-02-16 20:38:40.4567890" (6) DateOrder.ymd).bind fun x => Timestamp.truncate .debug x FieldType.unit DateUnit.year).bind fun x => Timestamp.format .debug junk x DateStyle.iso DateOrder.ymd) : Res Bytes) (Res.ok b!"2116-01-01 00:00:00") := by decide +kernel
example : same ((((Timestamp.tryFromStr .debug .number Caches.new b!"2116-02-16 20:38:40.4567890" (6) DateOrder.ymd).bind fun x => Timestamp.truncate .debug x FieldType.unit DateUnit.quarter).bind fun x => Timestamp.format .debug junk x DateStyle.iso DateOrder.ymd) : Res Bytes) (Res.ok b!"2116-01-01 00:00:00") := by decide +kernel
example : same ((((Timestamp.tryFromStr .debug .number Caches.new b!"2116-02-16 20:38:40.4567890" (6) DateOrder.ymd).bind fun x => Timestamp.truncate .debug x FieldType.unit DateUnit.month).bind fun x => Timestamp.format .debug junk x DateStyle.iso DateOrder.ymd) : Res Bytes) (Res.ok b!"2116-02-01 00:00:00") := by decide +kernel
example : same ((((Timestamp.tryFromStr .debug .number Caches.new b!"2116-02-16 20:38:40.4567890" (6) DateOrder.ymd).bind fun x => Timestamp.truncate .debug x FieldType.unit DateUnit.week).bind fun x => Timestamp.format .debug junk x DateStyle.iso DateOrder.ymd) : Res Bytes) (Res.ok b!"2116-02-10 00:00:00") := by decide +kernel
example : same ((((Timestamp.tryFromStr .debug .number Caches.new b!"2116-02-16 20:38:40.4567890" (6) DateOrder.ymd).bind fun x => Timestamp.truncate .debug x FieldType.unit DateUnit.day).bind fun x => Timestamp.format .debug junk x DateStyle.iso DateOrder.ymd) : Res Bytes) (Res.ok b!"2116-02-16 00:00:00") := by decide +kernel
example : same ((((Timestamp.tryFromStr .debug .number Caches.new b!"2116-02-16 20:38:40.4567890" (6) DateOrder.ymd).bind fun x => Timestamp.truncate .debug x FieldType.unit DateUnit.hour).bind fun x => Timestamp.format .debug junk x DateStyle.iso DateOrder.ymd) : Res Bytes) (Res.ok b!"2116-02-16 20:00:00") := by decide +kernel
example : same ((((Timestamp.tryFromStr .debug .number Caches.new b!"2116-02-16 20:38:40.4567890" (6) DateOrder.ymd).bind fun x => Timestamp.truncate .debug x FieldType.unit DateUnit.minute).bind fun x => Timestamp.format .debug junk x DateStyle.iso DateOrder.ymd) : Res Bytes) (Res.ok b!"2116-02-16 20:38:00") := by decide +kernel
example : same ((((Timestamp.tryFromStr .debug .number Caches.new b!"2116-02-16 20:38:40.4567890" (6) DateOrder.ymd).bind fun x => Timestamp.truncate .debug x FieldType.unit DateUnit.second).bind fun x => Timestamp.format .debug junk x DateStyle.iso DateOrder.ymd) : Res Bytes) (Res.ok b!"2116-02-16 20:38:40") := by decide +kernel
example : same ((((Timestamp.tryFromStr .debug .number Caches.new b!"2116-02-16 20:38:40.4567890" (6) DateOrder.ymd).bind fun x => Timestamp.truncate .debug x FieldType.unit DateUnit.millisec).bind fun x => Timestamp.format .debug junk x DateStyle.iso DateOrder.ymd) : Res Bytes) (Res.ok b!"2116-02-16 20:38:40.456") := by decide +kernel
example : same ((((Timestamp.tryFromStr .debug .number Caches.new b!"2116-02-16 20:38:40.4567890" (6) DateOrder.ymd).bind fun x => Timestamp.truncate .debug x FieldType.unit DateUnit.microsec).bind fun x => Timestamp.format .debug junk x DateStyle.iso DateOrder.ymd) : Res Bytes) (Res.ok b!"2116-02-16 20:38:40.456789") := by decide +kernel
example : same (((Res.ok (isErr ((Timestamp.tryFromStr .debug .number Caches.new b!"2116-02-16 20:38:40.4567890" (6) DateOrder.ymd).bind fun x => Timestamp.truncate .debug x FieldType.unit DateUnit.julian))) : Res Bool)) (.ok true) := by decide +kernel
example : same (((Res.ok (isErr ((Timestamp.tryFromStr .debug .number Caches.new b!"2116-02-16 20:38:40.4567890" (6) DateOrder.ymd).bind fun x => Timestamp.truncate .debug x FieldType.epoch DateUnit.epoch))) : Res Bool)) (.ok true) := by decide +kernel
example : same ((((Timestamp.tryFromStr .debug .number Caches.new b!"2001-02-16 20:38:40.4567890" (6) DateOrder.ymd).bind fun x => Res.ok (!Timestamp.isInfinite x)) : Res Bool)) (.ok true) := by decide +kernel
example : same ((((Res.ok (⟨(-9223372036854775808)⟩ : Timestamp)).bind fun x => Res.ok (Timestamp.isInfinite x)) : Res Bool)) (.ok true) := by decide +kernel
example : same (((Date.tryFromYmd .debug (2000) (10) (1)).bind fun x => Timestamp.ofDate .debug x) : Res Timestamp) (Timestamp.tryFromYmdHms .debug (2000) (10) (1) (0) (0) (F64.rnd ((0 : Int) / (10 : Int) : Rat))) := by decide +kernel
example : same ((((Date.tryFromYmd .debug (2000) (10) (1)).bind fun x => Timestamp.ofDate .debug x).bind fun x => Timestamp.format .debug junk x DateStyle.iso DateOrder.ymd) : Res Bytes) (Res.ok b!"2000-10-01 00:00:00") := by decide +kernel
example : same ((((Res.ok (⟨(-2147483648)⟩ : Date)).bind fun x => Timestamp.ofDate .debug x).bind fun x => Timestamp.format .debug junk x DateStyle.iso DateOrder.ymd) : Res Bytes) (Res.ok b!"-infinity") := by decide +kernel
example : same ((((Res.ok (⟨2147483647⟩ : Date)).bind fun x => Timestamp.ofDate .debug x).bind fun x => Timestamp.format .debug junk x DateStyle.iso DateOrder.ymd) : Res Bytes) (Res.ok b!"infinity") := by decide +kernel
example : same (((Timestamp.tryFromYmdHms .debug (2008) (10) (1) (12) (10) (F64.rnd ((2345 : Int) / (100 : Int) : Rat))).bind fun x => Date.ofTimestamp .debug x) : Res Date) (Date.tryFromYmd .debug (2008) (10) (1)) := by decide +kernel
example : same ((((Res.ok (⟨(-9223372036854775808)⟩ : Timestamp)).bind fun x => Date.ofTimestamp .debug x).bind fun x => Date.format .debug junk x DateStyle.iso DateOrder.ymd) : Res Bytes) (Res.ok b!"-infinity") := by decide +kernel
example : same (((Res.ok (isErr ((Res.ok (⟨(-9223372036854775808) + 20⟩ : Timestamp)).bind fun x => Date.ofTimestamp .debug x))) : Res Bool)) (.ok true) := by decide +kernel
example : same ((((Res.ok (⟨9223372036854775807⟩ : Timestamp)).bind fun x => Date.ofTimestamp .debug x).bind fun x => Date.format .debug junk x DateStyle.iso DateOrder.ymd) : Res Bytes) (Res.ok b!"infinity") := by decide +kernel
example : same (((Res.ok (isErr (Interval.tryFromStr .debug .number Caches.new b!"P1987-07-08-T" (-1) IntervalStyle.iso8601))) : Res Bool)) (.ok true) := by decide +kernel
example : same (((Res.ok (isErr (Interval.tryFromStr .debug .number Caches.new b!"P-1987-07-08T-06:40:50.02" (-1) IntervalStyle.iso8601))) : Res Bool)) (.ok true) := by decide +kernel
example : same (((Res.ok (isErr (Interval.tryFromStr .debug .number Caches.new b!"P198999999997-07-08T06:40:50.02" (-1) IntervalStyle.iso8601))) : Res Bool)) (.ok true) := by decide +kernel
example : same (((Res.ok (isErr (Interval.tryFromStr .debug .number Caches.new b!"P1987/07/08T06:40:50.02r" (-1) IntervalStyle.iso8601))) : Res Bool)) (.ok true) := by decide +kernel
example : same (((Res.ok (isErr (Interval.tryFromStr .debug .number Caches.new b!"P1987-07/08T06:40:50.02r" (-1) IntervalStyle.iso8601))) : Res Bool)) (.ok true) := by decide +kernel
example : same (((Res.ok (isErr (Interval.tryFromStr .debug .number Caches.new b!"P1987-07-08Y06:40:50.02" (-1) IntervalStyle.iso8601))) : Res Bool)) (.ok true) := by decide +kernel
example : same (((Res.ok (isErr (Interval.tryFromStr .debug .number Caches.new b!"P19870708T06:40:50.02r" (-1) IntervalStyle.iso8601))) : Res Bool)) (.ok true) := by decide +kernel
example : same (((Interval.tryFromStr .debug .number Caches.new b!"P1987Y" (-1) IntervalStyle.iso8601).bind fun x => Interval.format .debug junk x IntervalStyle.sqlStandard) : Res Bytes) (Res.ok b!"1987-0") := by decide +kernel
example : same (((Interval.tryFromStr .debug .number Caches.new b!"P19870708T06:40:50.02" (-1) IntervalStyle.iso8601).bind fun x => Interval.format .debug junk x IntervalStyle.postgres) : Res Bytes) (Res.ok b!"1987 years 7 mons 8 days 06:40:50.02") := by decide +kernel
example : same (((Interval.tryFromStr .debug .number Caches.new b!"@  -8 month 1 millennium 9 century 8 decade 7 year 7 day 6 hour 40 minute 50 second 20 millisecond" (-1) IntervalStyle.sqlStandard).bind fun x => Interval.format .debug junk x IntervalStyle.sqlStandard) : Res Bytes) (Res.ok b!"-1987-8 -7 -6:40:50.02") := by decide +kernel
example : same (((Interval.tryFromStr .debug .number Caches.new b!"@  -1 millennium 9 century 8 decade 7 year 8 month 7 day 6 hour 40 minute 50 second 20 millisecond" (-1) IntervalStyle.sqlStandard).bind fun x => Interval.format .debug junk x IntervalStyle.sqlStandard) : Res Bytes) (Res.ok b!"-13-8 -7 -6:40:50.02") := by decide +kernel
example : same (((Interval.tryFromStr .debug .number Caches.new b!"@  -7 year 8 month" (-1) IntervalStyle.sqlStandard).bind fun x => Interval.format .debug junk x IntervalStyle.sqlStandard) : Res Bytes) (Res.ok b!"-7-8") := by decide +kernel
example : same (((Interval.tryFromStr .debug .number Caches.new b!"@  7 year 8 month" (-1) IntervalStyle.iso8601).bind fun x => Interval.format .debug junk x IntervalStyle.sqlStandard) : Res Bytes) (Res.ok b!"7-8") := by decide +kernel
example : same (((Interval.tryFromStr .debug .number Caches.new b!"@  7 day" (-1) IntervalStyle.iso8601).bind fun x => Interval.format .debug junk x IntervalStyle.sqlStandard) : Res Bytes) (Res.ok b!"7 0:00:00") := by decide +kernel
example : same (((Interval.tryFromStr .debug .number Caches.new b!"@  6 hour 40 minute 50 second 20 millisecond" (-1) IntervalStyle.iso8601).bind fun x => Interval.format .debug junk x IntervalStyle.sqlStandard) : Res Bytes) (Res.ok b!"6:40:50.02") := by decide +kernel
example : same (((Res.ok (isErr (Interval.tryFromStr .debug .number Caches.new b!"@ 78.789.45 years" (-1) IntervalStyle.iso8601))) : Res Bool)) (.ok true) := by decide +kernel
example : same (((Res.ok (isErr (Interval.tryFromStr .debug .number Caches.new b!"@ 78.789_45 years" (-1) IntervalStyle.iso8601))) : Res Bool)) (.ok true) := by decide +kernel
example : same (((Res.ok (isErr (Interval.tryFromStr .debug .number Caches.new b!"@ J20045" (-1) IntervalStyle.iso8601))) : Res Bool)) (.ok true) := by decide +kernel
example : same (((Res.ok (isErr (Interval.tryFromStr .debug .number Caches.new b!"@ @" (-1) IntervalStyle.iso8601))) : Res Bool)) (.ok true) := by decide +kernel
example : same (((Res.ok (isErr (Interval.tryFromStr .debug .number Caches.new b!"invalid" (-1) IntervalStyle.iso8601))) : Res Bool)) (.ok true) := by decide +kernel
example : same (((Interval.tryFromStr .debug .number Caches.new b!"6:40:50.02" (-1) IntervalStyle.iso8601).bind fun x => Interval.format .debug junk x IntervalStyle.verbose) : Res Bytes) (Res.ok b!"@ 6 hours 40 mins 50.02 secs") := by decide +kernel
example : same (((Interval.tryFromStr .debug .number Caches.new b!"+1987-8 +7 +6:40:50.02" (-1) IntervalStyle.iso8601).bind fun x => Interval.format .debug junk x IntervalStyle.verbose) : Res Bytes) (Res.ok b!"@ 1987 years 8 mons 7 days 6 hours 40 mins 50.02 secs") := by decide +kernel
example : same (((Interval.tryFromStr .debug .number Caches.new b!"-1987-8 -7 -6:40:50.02" (-1) IntervalStyle.iso8601).bind fun x => Interval.format .debug junk x IntervalStyle.verbose) : Res Bytes) (Res.ok b!"@ 1987 years 8 mons 7 days 6 hours 40 mins 50.02 secs ago") := by decide +kernel
example : same (((Interval.tryFromStr .debug .number Caches.new b!"@ 1 millennium 9 century" (-1) IntervalStyle.iso8601).bind fun x => Interval.format .debug junk x IntervalStyle.verbose) : Res Bytes) (Res.ok b!"@ 1900 years") := by decide +kernel
example : same (((Interval.tryFromStr .debug .number Caches.new b!"@ 1 millennium 9 century ago" (-1) IntervalStyle.iso8601).bind fun x => Interval.format .debug junk x IntervalStyle.verbose) : Res Bytes) (Res.ok b!"@ 1900 years ago") := by decide +kernel
example : same (((Interval.tryFromStr .debug .number Caches.new b!"@ 1.1 millennium 9.1 century 8.1 decade 7 year 8 month 1 week 7 day 6 hour 40 minute 50 second 20 millisecond" (-1) IntervalStyle.iso8601).bind fun x => Interval.format .debug junk x IntervalStyle.verbose) : Res Bytes) (Res.ok b!"@ 2098 years 8 mons 14 days 6 hours 40 mins 50.02 secs") := by decide +kernel
example : same (((Interval.tryFromStr .debug .number Caches.new b!"@ 1 millennium 9 century 8 decade 7 year 8 month 7 day 6 hour 40 minute 50 second 20 millisecond" (-1) IntervalStyle.iso8601).bind fun x => Interval.format .debug junk x IntervalStyle.verbose) : Res Bytes) (Res.ok b!"@ 1987 years 8 mons 7 days 6 hours 40 mins 50.02 secs") := by decide +kernel
example : same (((Interval.tryFromStr .debug .number Caches.new b!"@ 1 millennium 9 century 8 decade 7 year 8 month 7 day 6 hour 40 minute 50 second 20 millisecond" (-1) IntervalStyle.iso8601).bind fun x => Interval.format .debug junk x IntervalStyle.sqlStandard) : Res Bytes) (Res.ok b!"+1987-8 +7 +6:40:50.02") := by decide +kernel
example : same (((Interval.tryFromStr .debug .number Caches.new b!"@ 1 millennium 9 century 8 decade 7 year 8 month 7 day 6 hour 40 minute 50 second 20 millisecond" (-1) IntervalStyle.iso8601).bind fun x => Interval.format .debug junk x IntervalStyle.postgres) : Res Bytes) (Res.ok b!"1987 years 8 mons 7 days 06:40:50.02") := by decide +kernel
example : same (((Interval.tryFromStr .debug .number Caches.new b!"@ 1 millennium 9 century 8 decade 7 year 8 month 7 day 6 hour 40 minute 50 second 20 millisecond" (-1) IntervalStyle.iso8601).bind fun x => Interval.format .debug junk x IntervalStyle.iso8601) : Res Bytes) (Res.ok b!"P1987Y8M7DT6H40M50.02S") := by decide +kernel
example : same (((Interval.tryFromStr .debug .number Caches.new b!"@ -1 millennium -9 century 8 decade 7 year 8 month 7 day 6 hour 40 minute 50 second 20 millisecond" (-1) IntervalStyle.iso8601).bind fun x => Interval.format .debug junk x IntervalStyle.verbose) : Res Bytes) (Res.ok b!"@ 1812 years 4 mons -7 days -6 hours -40 mins -50.02 secs ago") := by decide +kernel
example : same (((Interval.tryFromStr .debug .number Caches.new b!"@ -1 millennium -9 century 8 decade 7 year 8 month 7 day 6 hour 40 minute 50 second 20 millisecond" (-1) IntervalStyle.iso8601).bind fun x => Interval.format .debug junk x IntervalStyle.sqlStandard) : Res Bytes) (Res.ok b!"-1812-4 +7 +6:40:50.02") := by decide +kernel
example : same (((Res.ok (isErr (Interval.tryFromStr .debug .number Caches.new b!"@ 1 millennium 9 century 9 century ago" (-1) IntervalStyle.iso8601))) : Res Bool)) (.ok true) := by decide +kernel
example : same (((Res.ok (isErr (Interval.tryFromStr .debug .number Caches.new b!"@ 1 yue" (-1) IntervalStyle.iso8601))) : Res Bool)) (.ok true) := by decide +kernel
example : same (((Res.ok (isErr (Interval.tryFromStr .debug .number Caches.new b!"@" (-1) IntervalStyle.iso8601))) : Res Bool)) (.ok true) := by decide +kernel
example : same (((Res.ok (isErr (Interval.tryFromStr .debug .number Caches.new b!"infinity" (-1) IntervalStyle.iso8601))) : Res Bool)) (.ok true) := by decide +kernel
example : same (((Interval.tryFromStr .debug .number Caches.new b!"P1987Y8M1W7DT6H40M50.02S" (-1) IntervalStyle.iso8601).bind fun x => Interval.format .debug junk x IntervalStyle.postgres) : Res Bytes) (Res.ok b!"1987 years 8 mons 14 days 06:40:50.02") := by decide +kernel
example : same (((Interval.tryFromStr .debug .number Caches.new b!"P1987-8-7T06:40:50.02" (-1) IntervalStyle.iso8601).bind fun x => Interval.format .debug junk x IntervalStyle.postgres) : Res Bytes) (Res.ok b!"1987 years 8 mons 7 days 06:40:50.02") := by decide +kernel
example : same (((Interval.tryFromStr .debug .number Caches.new b!"P1987T06:40:50.02" (-1) IntervalStyle.iso8601).bind fun x => Interval.format .debug junk x IntervalStyle.postgres) : Res Bytes) (Res.ok b!"1987 years 06:40:50.02") := by decide +kernel
example : same (((Interval.tryFromStr .debug .number Caches.new b!"P1987-8T06:40:50.02" (-1) IntervalStyle.iso8601).bind fun x => Interval.format .debug junk x IntervalStyle.postgres) : Res Bytes) (Res.ok b!"1987 years 8 mons 06:40:50.02") := by decide +kernel
example : same (((Interval.tryFromStr .debug .number Caches.new b!"P1987-8-7" (-1) IntervalStyle.iso8601).bind fun x => Interval.format .debug junk x IntervalStyle.postgres) : Res Bytes) (Res.ok b!"1987 years 8 mons 7 days") := by decide +kernel
example : same (((Interval.tryFromStr .debug .number Caches.new b!"P1987" (-1) IntervalStyle.iso8601).bind fun x => Interval.format .debug junk x IntervalStyle.postgres) : Res Bytes) (Res.ok b!"1987 years") := by decide +kernel
example : same (((Interval.tryFromStr .debug .number Caches.new b!"P1987-8" (-1) IntervalStyle.iso8601).bind fun x => Interval.format .debug junk x IntervalStyle.postgres) : Res Bytes) (Res.ok b!"1987 years 8 mons") := by decide +kernel
example : same (((Interval.tryFromStr .debug .number Caches.new b!"P1987-8-7T06:40:50.02" (-1) IntervalStyle.iso8601).bind fun x => Interval.format .debug junk x IntervalStyle.postgres) : Res Bytes) (Res.ok b!"1987 years 8 mons 7 days 06:40:50.02") := by decide +kernel
example : same (((Interval.tryFromStr .debug .number Caches.new b!"P1987-8-7T064020.34567" (-1) IntervalStyle.iso8601).bind fun x => Interval.format .debug junk x IntervalStyle.postgres) : Res Bytes) (Res.ok b!"1987 years 8 mons 7 days 06:40:20.34567") := by decide +kernel
example : same (((Interval.tryFromStr .debug .number Caches.new b!"P1987-8-7T23.3" (-1) IntervalStyle.iso8601).bind fun x => Interval.format .debug junk x IntervalStyle.postgres) : Res Bytes) (Res.ok b!"1987 years 8 mons 7 days 23:18:00") := by decide +kernel
example : same (((Interval.tryFromStr .debug .number Caches.new b!"P1987-8-7T064020.34567" (-1) IntervalStyle.iso8601).bind fun x => Interval.format .debug junk x IntervalStyle.postgres) : Res Bytes) (Res.ok b!"1987 years 8 mons 7 days 06:40:20.34567") := by decide +kernel
example : same (((Interval.tryFromStr .debug .number Caches.new b!"P19870807.23456" (-1) IntervalStyle.iso8601).bind fun x => Interval.format .debug junk x IntervalStyle.postgres) : Res Bytes) (Res.ok b!"1987 years 8 mons 7 days 05:37:45.984142") := by decide +kernel
example : same (((Interval.tryFromStr .debug .number Caches.new b!"P807.23456" (-1) IntervalStyle.iso8601).bind fun x => Interval.format .debug junk x IntervalStyle.postgres) : Res Bytes) (Res.ok b!"807 years 2 mons") := by decide +kernel
example : same (((Res.ok (isErr (Interval.tryFromStr .debug .number Caches.new b!"P" (-1) IntervalStyle.iso8601))) : Res Bool)) (.ok true) := by decide +kernel
example : same (((Res.ok (isErr (Interval.tryFromStr .debug .number Caches.new b!"P1987-n8-7T06:40:50.02" (-1) IntervalStyle.iso8601))) : Res Bool)) (.ok true) := by decide +kernel
example : same (((Res.ok (isErr (Interval.tryFromStr .debug .number Caches.new b!"P1987Y8M1W7DT6H40M50.02Y" (-1) IntervalStyle.iso8601))) : Res Bool)) (.ok true) := by decide +kernel
example : same (((Res.ok (isErr (Interval.tryFromStr .debug .number Caches.new b!"P1987Y8M1N7DT6H40M50.02S" (-1) IntervalStyle.iso8601))) : Res Bool)) (.ok true) := by decide +kernel
example : same (((Res.ok (isErr (Interval.tryFromStr .debug .number Caches.new b!"P1987Y8M17D4567.8T6H40M50.02S" (-1) IntervalStyle.iso8601))) : Res Bool)) (.ok true) := by decide +kernel
example : same (((Res.ok (isErr (Interval.tryFromStr .debug .number Caches.new b!"P1987Y8M17DT6H40M50.02S5678.9" (-1) IntervalStyle.iso8601))) : Res Bool)) (.ok true) := by decide +kernel
example : same (((Time.tryFromHms .debug (12) (34) (F64.rnd ((23456788 : Int) / (1000000 : Int) : Rat))).bind fun x => Res.ok (Interval.ofTime x)) : Res Interval) (Interval.tryFromYmwdHms (0) (0) (0) (0) (12) (34) (F64.rnd ((23456788 : Int) / (1000000 : Int) : Rat))) := by decide +kernel
example : same (((Interval.tryFromYmwdHms (2020) (12) (23) (12) (36) (34) (F64.rnd ((23456788 : Int) / (1000000 : Int) : Rat))).bind fun x => Time.ofInterval .debug x) : Res Time) (Time.tryFromHms .debug (12) (34) (F64.rnd ((23456788 : Int) / (1000000 : Int) : Rat))) := by decide +kernel
example : same ((((Interval.tryFromYmwdHms (2020) (12) (23) (12) (-2) (34) (F64.rnd ((23456788 : Int) / (1000000 : Int) : Rat))).bind fun x => Time.ofInterval .debug x).bind fun x => Time.format .debug junk x DateStyle.sql) : Res Bytes) (Res.ok b!"22:34:23.456788") := by decide +kernel
example : same (((Res.ok (isErr (Interval.tryFromStr .debug .number Caches.new b!"@ 1 millennium 9 century 8 decade 7 year 8.1 month 7 day 6 hour 40 minute 50 second 20 millisecond 567 microsecond" (67371014) IntervalStyle.iso8601))) : Res Bool)) (.ok true) := by decide +kernel
example : same (((Interval.tryFromStr .debug .number Caches.new b!"@ 1 millennium 9 century 8 decade 7 year 8.1 month 7 day 6 hour 40 minute 50 second 20 millisecond 567 microsecond" (201326598) IntervalStyle.iso8601).bind fun x => Interval.format .debug junk x IntervalStyle.verbose) : Res Bytes) (Res.ok b!"@ 1987 years 8 mons 10 days 6 hours 40 mins") := by decide +kernel
example : same (((Interval.tryFromStr .debug .number Caches.new b!"@ 1 millennium 9 century 8 decade 7 year 8.1 month 7 day -6 hour 40 minute 50 second 20 millisecond 567 microsecond" (201326598) IntervalStyle.iso8601).bind fun x => Interval.format .debug junk x IntervalStyle.verbose) : Res Bytes) (Res.ok b!"@ 1987 years 8 mons 10 days -5 hours -19 mins") := by decide +kernel
example : same (((Interval.tryFromStr .debug .number Caches.new b!"@ 1 millennium 9 century 8 decade 7 year 8.1 month 7 day 6 hour 40 minute 50 second 20 millisecond 567 microsecond" (67633158) IntervalStyle.iso8601).bind fun x => Interval.format .debug junk x IntervalStyle.verbose) : Res Bytes) (Res.ok b!"@ 1987 years 8 mons 10 days 6 hours") := by decide +kernel
example : same (((Interval.tryFromStr .debug .number Caches.new b!"@ 1 millennium 9 century 8 decade 7 year 8.1 month 7 day 6 hour 40 minute 50 second 20 millisecond 567 microsecond" (131078) IntervalStyle.iso8601).bind fun x => Interval.format .debug junk x IntervalStyle.verbose) : Res Bytes) (Res.ok b!"@ 1987 years 8 mons") := by decide +kernel
example : same (((Interval.tryFromStr .debug .number Caches.new b!"@ 1 millennium 9 century 8 decade 7 year 8.1 month 7 day 6 hour 40 minute 50 second 20 millisecond 567 microsecond" (262150) IntervalStyle.iso8601).bind fun x => Interval.format .debug junk x IntervalStyle.verbose) : Res Bytes) (Res.ok b!"@ 1987 years") := by decide +kernel
example : same (((Interval.tryFromStr .debug .number Caches.new b!"@ 1987.34" (262150) IntervalStyle.iso8601).bind fun x => Interval.format .debug junk x IntervalStyle.verbose) : Res Bytes) (Res.ok b!"@ 1987 years") := by decide +kernel
example : same (((Interval.tryFromStr .debug .number Caches.new b!"@ 1987-7" (393222) IntervalStyle.iso8601).bind fun x => Interval.format .debug junk x IntervalStyle.verbose) : Res Bytes) (Res.ok b!"@ 1987 years 7 mons") := by decide +kernel
example : same (((Interval.tryFromStr .debug .number Caches.new b!"@ 19" (524294) IntervalStyle.iso8601).bind fun x => Interval.format .debug junk x IntervalStyle.verbose) : Res Bytes) (Res.ok b!"@ 19 days") := by decide +kernel
example : same (((Interval.tryFromStr .debug .number Caches.new b!"@ 10" (67633158) IntervalStyle.iso8601).bind fun x => Interval.format .debug junk x IntervalStyle.verbose) : Res Bytes) (Res.ok b!"@ 10 hours") := by decide +kernel
example : same (((Interval.tryFromStr .debug .number Caches.new b!"@ 10" (67108870) IntervalStyle.iso8601).bind fun x => Interval.format .debug junk x IntervalStyle.verbose) : Res Bytes) (Res.ok b!"@ 10 hours") := by decide +kernel
example : same (((Interval.tryFromStr .debug .number Caches.new b!"@ 10" (134217734) IntervalStyle.iso8601).bind fun x => Interval.format .debug junk x IntervalStyle.verbose) : Res Bytes) (Res.ok b!"@ 10 mins") := by decide +kernel
example : same (((Interval.tryFromStr .debug .number Caches.new b!"@ 10" (268435462) IntervalStyle.iso8601).bind fun x => Interval.format .debug junk x IntervalStyle.verbose) : Res Bytes) (Res.ok b!"@ 10 secs") := by decide +kernel
example : same (((Interval.tryFromStr .debug .number Caches.new b!"@ 10" (402653190) IntervalStyle.iso8601).bind fun x => Interval.format .debug junk x IntervalStyle.verbose) : Res Bytes) (Res.ok b!"@ 10 secs") := by decide +kernel
example : same (((Interval.tryFromStr .debug .number Caches.new b!"@ 10" (2147418118) IntervalStyle.iso8601).bind fun x => Interval.format .debug junk x IntervalStyle.verbose) : Res Bytes) (Res.ok b!"@ 10 secs") := by decide +kernel
example : same (((Interval.tryFromStr .debug .number Caches.new b!"@ 10.2345" (469762054) IntervalStyle.iso8601).bind fun x => Interval.format .debug junk x IntervalStyle.verbose) : Res Bytes) (Res.ok b!"@ 10.2345 secs") := by decide +kernel
example : same (((Res.ok (isErr (Interval.tryFromStr .debug .number Caches.new b!"@ 10-h" (393222) IntervalStyle.iso8601))) : Res Bool)) (.ok true) := by decide +kernel
example : same (((Res.ok (isErr (Interval.tryFromStr .debug .number Caches.new b!"@ 10-13" (393222) IntervalStyle.iso8601))) : Res Bool)) (.ok true) := by decide +kernel
example : same (((Res.ok (isErr (Interval.tryFromStr .debug .number Caches.new b!"@ 10-13" (393222) IntervalStyle.iso8601))) : Res Bool)) (.ok true) := by decide +kernel
example : same (((Interval.tryFromStr .debug .number Caches.new b!"-178000000 year" (-1) IntervalStyle.iso8601).bind fun x => Interval.format .debug junk x IntervalStyle.verbose) : Res Bytes) (Res.ok b!"@ 178000000 years ago") := by decide +kernel
example : same (((Interval.tryFromStr .debug .number Caches.new b!"178000000 year" (-1) IntervalStyle.iso8601).bind fun x => Interval.format .debug junk x IntervalStyle.verbose) : Res Bytes) (Res.ok b!"@ 178000000 years") := by decide +kernel
example : same (((Res.ok (isErr (Interval.tryFromStr .debug .number Caches.new b!"-179000000 year" (-1) IntervalStyle.iso8601))) : Res Bool)) (.ok true) := by decide +kernel
example : same (((Res.ok (isErr (Interval.tryFromStr .debug .number Caches.new b!"-179000000 year" (-1) IntervalStyle.iso8601))) : Res Bool)) (.ok true) := by decide +kernel
example : same (((Res.ok (isErr (Interval.tryFromYmwdHms (1) (13) (3) (29) (34) (56) (F64.inf false)))) : Res Bool)) (.ok true) := by decide +kernel
example : same (((Res.ok (isErr (Interval.tryFromYmwdHms (1) (13) (3) (29) (34) (56) F64.nan))) : Res Bool)) (.ok true) := by decide +kernel
example : same (((Interval.tryFromYmwdHms (1) (13) (3) (29) (34) (56) (F64.rnd ((678 : Int) / (10 : Int) : Rat))).bind fun x => Interval.format .debug junk x IntervalStyle.iso8601) : Res Bytes) (Res.ok b!"P2Y1M50DT34H57M7.8S") := by decide +kernel
example : same (((Res.ok (isErr ((Interval.tryFromYmwdHms (2001) (2) (0) (16) (20) (38) (F64.rnd ((404567890 : Int) / (10000000 : Int) : Rat))).bind fun x => Interval.datePart .debug x FieldType.epoch DateUnit.century))) : Res Bool)) (.ok true) := by decide +kernel
example : same (((Interval.tryFromYmwdHms (2001) (2) (0) (16) (20) (38) (F64.rnd ((404567890 : Int) / (10000000 : Int) : Rat))).bind fun x => Interval.datePart .debug x FieldType.unit DateUnit.century) : Res F64) (Res.ok (F64.rnd ((200 : Int) / (10 : Int) : Rat))) := by decide +kernel
example : same (((Interval.tryFromYmwdHms (2001) (2) (0) (16) (20) (38) (F64.rnd ((404567890 : Int) / (10000000 : Int) : Rat))).bind fun x => Interval.datePart .debug x FieldType.unit DateUnit.millennium) : Res F64) (Res.ok (F64.rnd ((20 : Int) / (10 : Int) : Rat))) := by decide +kernel
example : same (((Interval.tryFromYmwdHms (2001) (2) (0) (16) (20) (38) (F64.rnd ((404567890 : Int) / (10000000 : Int) : Rat))).bind fun x => Interval.datePart .debug x FieldType.unit DateUnit.decade) : Res F64) (Res.ok (F64.rnd ((2000 : Int) / (10 : Int) : Rat))) := by decide +kernel
example : same (((Interval.tryFromYmwdHms (2001) (2) (0) (16) (20) (38) (F64.rnd ((404567890 : Int) / (10000000 : Int) : Rat))).bind fun x => Interval.datePart .debug x FieldType.unit DateUnit.day) : Res F64) (Res.ok (F64.rnd ((160 : Int) / (10 : Int) : Rat))) := by decide +kernel
example : same (((Res.ok (isErr ((Interval.tryFromYmwdHms (2001) (2) (0) (16) (20) (38) (F64.rnd ((404567890 : Int) / (10000000 : Int) : Rat))).bind fun x => Interval.datePart .debug x FieldType.unit DateUnit.dow))) : Res Bool)) (.ok true) := by decide +kernel
example : same (((Res.ok (isErr ((Interval.tryFromYmwdHms (2001) (2) (0) (16) (20) (38) (F64.rnd ((404567890 : Int) / (10000000 : Int) : Rat))).bind fun x => Interval.datePart .debug x FieldType.unit DateUnit.doy))) : Res Bool)) (.ok true) := by decide +kernel
example : same (((Res.ok (isErr ((Interval.tryFromYmwdHms (2001) (2) (0) (16) (20) (38) (F64.rnd ((404567890 : Int) / (10000000 : Int) : Rat))).bind fun x => Interval.datePart .debug x FieldType.unit DateUnit.isoDow))) : Res Bool)) (.ok true) := by decide +kernel
example : same (((Res.ok (isErr ((Interval.tryFromYmwdHms (2001) (2) (0) (16) (20) (38) (F64.rnd ((404567890 : Int) / (10000000 : Int) : Rat))).bind fun x => Interval.datePart .debug x FieldType.unit DateUnit.isoYear))) : Res Bool)) (.ok true) := by decide +kernel
example : same (((Interval.tryFromYmwdHms (2001) (2) (0) (16) (20) (38) (F64.rnd ((404567890 : Int) / (10000000 : Int) : Rat))).bind fun x => Interval.datePart .debug x FieldType.epoch DateUnit.epoch) : Res F64) (Res.ok (F64.rnd ((6315339832045679 : Int) / (100000 : Int) : Rat))) := by decide +kernel
example : same (((Interval.tryFromYmwdHms (2001) (2) (0) (16) (20) (38) (F64.rnd ((404567890 : Int) / (10000000 : Int) : Rat))).bind fun x => Interval.datePart .debug x FieldType.unit DateUnit.hour) : Res F64) (Res.ok (F64.rnd ((200 : Int) / (10 : Int) : Rat))) := by decide +kernel
example : same (((Interval.tryFromYmwdHms (2001) (2) (0) (16) (20) (38) (F64.rnd ((404567890 : Int) / (10000000 : Int) : Rat))).bind fun x => Interval.datePart .debug x FieldType.unit DateUnit.minute) : Res F64) (Res.ok (F64.rnd ((380 : Int) / (10 : Int) : Rat))) := by decide +kernel
example : same (((Interval.tryFromYmwdHms (2001) (2) (0) (16) (20) (38) (F64.rnd ((404567890 : Int) / (10000000 : Int) : Rat))).bind fun x => Interval.datePart .debug x FieldType.unit DateUnit.second) : Res F64) (Res.ok (F64.rnd ((40456789 : Int) / (1000000 : Int) : Rat))) := by decide +kernel
example : same (((Interval.tryFromYmwdHms (2001) (2) (0) (16) (20) (38) (F64.rnd ((404567890 : Int) / (10000000 : Int) : Rat))).bind fun x => Interval.datePart .debug x FieldType.unit DateUnit.millisec) : Res F64) (Res.ok (F64.rnd ((40456789 : Int) / (1000 : Int) : Rat))) := by decide +kernel
example : same (((Interval.tryFromYmwdHms (2001) (2) (0) (16) (20) (38) (F64.rnd ((404567890 : Int) / (10000000 : Int) : Rat))).bind fun x => Interval.datePart .debug x FieldType.unit DateUnit.microsec) : Res F64) (Res.ok (F64.rnd ((404567890 : Int) / (10 : Int) : Rat))) := by decide +kernel
example : same (((Interval.tryFromYmwdHms (2001) (2) (0) (16) (20) (38) (F64.rnd ((404567890 : Int) / (10000000 : Int) : Rat))).bind fun x => Interval.datePart .debug x FieldType.unit DateUnit.month) : Res F64) (Res.ok (F64.rnd ((20 : Int) / (10 : Int) : Rat))) := by decide +kernel
example : same (((Interval.tryFromYmwdHms (2001) (2) (0) (16) (20) (38) (F64.rnd ((404567890 : Int) / (10000000 : Int) : Rat))).bind fun x => Interval.datePart .debug x FieldType.unit DateUnit.quarter) : Res F64) (Res.ok (F64.rnd ((10 : Int) / (10 : Int) : Rat))) := by decide +kernel
example : same (((Res.ok (isErr ((Interval.tryFromYmwdHms (2001) (2) (0) (16) (20) (38) (F64.rnd ((404567890 : Int) / (10000000 : Int) : Rat))).bind fun x => Interval.datePart .debug x FieldType.unit DateUnit.week))) : Res Bool)) (.ok true) := by decide +kernel
example : same (((Interval.tryFromYmwdHms (2001) (2) (0) (16) (20) (38) (F64.rnd ((404567890 : Int) / (10000000 : Int) : Rat))).bind fun x => Interval.datePart .debug x FieldType.unit DateUnit.year) : Res F64) (Res.ok (F64.rnd ((20010 : Int) / (10 : Int) : Rat))) := by decide +kernel
example : same (((Res.ok (isErr ((Interval.tryFromYmwdHms (2116) (2) (0) (16) (20) (38) (F64.rnd ((404567890 : Int) / (10000000 : Int) : Rat))).bind fun x => Interval.truncate .debug x FieldType.epoch DateUnit.microsec))) : Res Bool)) (.ok true) := by decide +kernel
example : same (((Res.ok (isErr ((Interval.tryFromYmwdHms (2116) (2) (0) (16) (20) (38) (F64.rnd ((404567890 : Int) / (10000000 : Int) : Rat))).bind fun x => Interval.truncate .debug x FieldType.unit DateUnit.epoch))) : Res Bool)) (.ok true) := by decide +kernel
example : same ((((Interval.tryFromYmwdHms (2116) (2) (0) (16) (20) (38) (F64.rnd ((404567890 : Int) / (10000000 : Int) : Rat))).bind fun x => Interval.truncate .debug x FieldType.unit DateUnit.millennium).bind fun x => Interval.format .debug junk x IntervalStyle.iso8601) : Res Bytes) (Res.ok b!"P2000Y") := by decide +kernel
example : same ((((Interval.tryFromYmwdHms (2116) (2) (0) (16) (20) (38) (F64.rnd ((404567890 : Int) / (10000000 : Int) : Rat))).bind fun x => Interval.truncate .debug x FieldType.unit DateUnit.century).bind fun x => Interval.format .debug junk x IntervalStyle.iso8601) : Res Bytes) (Res.ok b!"P2100Y") := by decide +kernel
example : same ((((Interval.tryFromYmwdHms (2116) (2) (0) (16) (20) (38) (F64.rnd ((404567890 : Int) / (10000000 : Int) : Rat))).bind fun x => Interval.truncate .debug x FieldType.unit DateUnit.decade).bind fun x => Interval.format .debug junk x IntervalStyle.iso8601) : Res Bytes) (Res.ok b!"P2110Y") := by decide +kernel
example : same ((((Interval.tryFromYmwdHms (2116) (2) (0) (16) (20) (38) (F64.rnd ((404567890 : Int) / (10000000 : Int) : Rat))).bind fun x => Interval.truncate .debug x FieldType.unit DateUnit.year).bind fun x => Interval.format .debug junk x IntervalStyle.iso8601) : Res Bytes) (Res.ok b!"P2116Y") := by decide +kernel
example : same ((((Interval.tryFromYmwdHms (2116) (2) (0) (16) (20) (38) (F64.rnd ((404567890 : Int) / (10000000 : Int) : Rat))).bind fun x => Interval.truncate .debug x FieldType.unit DateUnit.quarter).bind fun x => Interval.format .debug junk x IntervalStyle.iso8601) : Res Bytes) (Res.ok b!"P2116Y") := by decide +kernel
example : same ((((Interval.tryFromYmwdHms (2116) (2) (0) (16) (20) (38) (F64.rnd ((404567890 : Int) / (10000000 : Int) : Rat))).bind fun x => Interval.truncate .debug x FieldType.unit DateUnit.month).bind fun x => Interval.format .debug junk x IntervalStyle.iso8601) : Res Bytes) (Res.ok b!"P2116Y2M") := by decide +kernel
example : same (((Res.ok (isErr ((Interval.tryFromYmwdHms (2116) (2) (0) (16) (20) (38) (F64.rnd ((404567890 : Int) / (10000000 : Int) : Rat))).bind fun x => Interval.truncate .debug x FieldType.unit DateUnit.week))) : Res Bool)) (.ok true) := by decide +kernel
example : same ((((Interval.tryFromYmwdHms (2116) (2) (0) (16) (20) (38) (F64.rnd ((404567890 : Int) / (10000000 : Int) : Rat))).bind fun x => Interval.truncate .debug x FieldType.unit DateUnit.day).bind fun x => Interval.format .debug junk x IntervalStyle.iso8601) : Res Bytes) (Res.ok b!"P2116Y2M16D") := by decide +kernel
example : same ((((Interval.tryFromYmwdHms (2116) (2) (0) (16) (20) (38) (F64.rnd ((404567890 : Int) / (10000000 : Int) : Rat))).bind fun x => Interval.truncate .debug x FieldType.unit DateUnit.hour).bind fun x => Interval.format .debug junk x IntervalStyle.iso8601) : Res Bytes) (Res.ok b!"P2116Y2M16DT20H") := by decide +kernel
example : same ((((Interval.tryFromYmwdHms (2116) (2) (0) (16) (20) (38) (F64.rnd ((404567890 : Int) / (10000000 : Int) : Rat))).bind fun x => Interval.truncate .debug x FieldType.unit DateUnit.minute).bind fun x => Interval.format .debug junk x IntervalStyle.iso8601) : Res Bytes) (Res.ok b!"P2116Y2M16DT20H38M") := by decide +kernel
example : same ((((Interval.tryFromYmwdHms (2116) (2) (0) (16) (20) (38) (F64.rnd ((404567890 : Int) / (10000000 : Int) : Rat))).bind fun x => Interval.truncate .debug x FieldType.unit DateUnit.second).bind fun x => Interval.format .debug junk x IntervalStyle.iso8601) : Res Bytes) (Res.ok b!"P2116Y2M16DT20H38M40S") := by decide +kernel
example : same ((((Interval.tryFromYmwdHms (2116) (2) (0) (16) (20) (38) (F64.rnd ((404567890 : Int) / (10000000 : Int) : Rat))).bind fun x => Interval.truncate .debug x FieldType.unit DateUnit.millisec).bind fun x => Interval.format .debug junk x IntervalStyle.iso8601) : Res Bytes) (Res.ok b!"P2116Y2M16DT20H38M40.456S") := by decide +kernel
example : same ((((Interval.tryFromYmwdHms (2116) (2) (0) (16) (20) (38) (F64.rnd ((404567890 : Int) / (10000000 : Int) : Rat))).bind fun x => Interval.truncate .debug x FieldType.unit DateUnit.microsec).bind fun x => Interval.format .debug junk x IntervalStyle.iso8601) : Res Bytes) (Res.ok b!"P2116Y2M16DT20H38M40.456789S") := by decide +kernel
example : same ((((Interval.tryFromYmwdHms (2116) (2) (0) (80) (80) (38) (F64.rnd ((404567890 : Int) / (10000000 : Int) : Rat))).bind fun x => Interval.justifyDays .debug x ).bind fun x => Interval.format .debug junk x IntervalStyle.iso8601) : Res Bytes) (Res.ok b!"P2116Y4M20DT80H38M40.456789S") := by decide +kernel
example : same ((((Interval.tryFromYmwdHms (0) (2) (0) (-2) (20) (38) (F64.rnd ((404567890 : Int) / (10000000 : Int) : Rat))).bind fun x => Interval.justifyDays .debug x ).bind fun x => Interval.format .debug junk x IntervalStyle.iso8601) : Res Bytes) (Res.ok b!"P1M28DT20H38M40.456789S") := by decide +kernel
example : same ((((Interval.tryFromYmwdHms (0) (-2) (0) (4) (12) (38) (F64.rnd ((404567890 : Int) / (10000000 : Int) : Rat))).bind fun x => Interval.justifyDays .debug x ).bind fun x => Interval.format .debug junk x IntervalStyle.iso8601) : Res Bytes) (Res.ok b!"P-1M-26DT12H38M40.456789S") := by decide +kernel
example : same ((((Interval.tryFromYmwdHms (2116) (2) (0) (80) (80) (38) (F64.rnd ((404567890 : Int) / (10000000 : Int) : Rat))).bind fun x => Interval.justifyHours .debug x ).bind fun x => Interval.format .debug junk x IntervalStyle.iso8601) : Res Bytes) (Res.ok b!"P2116Y2M83DT8H38M40.456789S") := by decide +kernel
example : same ((((Interval.tryFromYmwdHms (0) (2) (0) (80) (-2) (38) (F64.rnd ((404567890 : Int) / (10000000 : Int) : Rat))).bind fun x => Interval.justifyHours .debug x ).bind fun x => Interval.format .debug junk x IntervalStyle.iso8601) : Res Bytes) (Res.ok b!"P2M79DT22H38M40.456789S") := by decide +kernel
example : same ((((Interval.tryFromYmwdHms (0) (2) (0) (-80) (48) (38) (F64.rnd ((404567890 : Int) / (10000000 : Int) : Rat))).bind fun x => Interval.justifyHours .debug x ).bind fun x => Interval.format .debug junk x IntervalStyle.iso8601) : Res Bytes) (Res.ok b!"P2M-77DT-23H-21M-19.543211S") := by decide +kernel
example : same ((((Interval.tryFromYmwdHms (2116) (2) (0) (80) (80) (38) (F64.rnd ((404567890 : Int) / (10000000 : Int) : Rat))).bind fun x => Interval.justifyInterval .debug x ).bind fun x => Interval.format .debug junk x IntervalStyle.iso8601) : Res Bytes) (Res.ok b!"P2116Y4M23DT8H38M40.456789S") := by decide +kernel
example : same ((((Interval.tryFromYmwdHms (0) (2) (0) (-2) (12) (38) (F64.rnd ((404567890 : Int) / (10000000 : Int) : Rat))).bind fun x => Interval.justifyInterval .debug x ).bind fun x => Interval.format .debug junk x IntervalStyle.iso8601) : Res Bytes) (Res.ok b!"P1M28DT12H38M40.456789S") := by decide +kernel
example : same ((((Interval.tryFromYmwdHms (0) (2) (0) (0) (-8) (38) (F64.rnd ((404567890 : Int) / (10000000 : Int) : Rat))).bind fun x => Interval.justifyInterval .debug x ).bind fun x => Interval.format .debug junk x IntervalStyle.iso8601) : Res Bytes) (Res.ok b!"P1M29DT16H38M40.456789S") := by decide +kernel
example : same ((((Interval.tryFromYmwdHms (0) (-1) (0) (23) (8) (38) (F64.rnd ((404567890 : Int) / (10000000 : Int) : Rat))).bind fun x => Interval.justifyInterval .debug x ).bind fun x => Interval.format .debug junk x IntervalStyle.iso8601) : Res Bytes) (Res.ok b!"P-6DT-15H-21M-19.543211S") := by decide +kernel
example : same ((((Interval.tryFromYmwdHms (0) (-1) (0) (0) (8) (38) (F64.rnd ((404567890 : Int) / (10000000 : Int) : Rat))).bind fun x => Interval.justifyInterval .debug x ).bind fun x => Interval.format .debug junk x IntervalStyle.iso8601) : Res Bytes) (Res.ok b!"P-29DT-15H-21M-19.543211S") := by decide +kernel
example : same ((((Interval.tryFromYmwdHms (2116) (0) (0) (1) (-8) (38) (F64.rnd ((404567890 : Int) / (10000000 : Int) : Rat))).bind fun x => Interval.justifyInterval .debug x ).bind fun x => Interval.format .debug junk x IntervalStyle.iso8601) : Res Bytes) (Res.ok b!"P2116YT16H38M40.456789S") := by decide +kernel
example : same ((((Interval.tryFromYmwdHms (2116) (0) (0) (-1) (28) (38) (F64.rnd ((404567890 : Int) / (10000000 : Int) : Rat))).bind fun x => Interval.justifyInterval .debug x ).bind fun x => Interval.format .debug junk x IntervalStyle.iso8601) : Res Bytes) (Res.ok b!"P2116YT4H38M40.456789S") := by decide +kernel
example : same (((Res.ok (isErr ((Res.ok (⟨-211813488000000000⟩ : Timestamp)).bind fun x => ((Res.ok (⟨-23⟩ : Time)).bind fun a0 => Timestamp.addTime .debug x a0)))) : Res Bool)) (.ok true) := by decide +kernel
example : same ((((Timestamp.tryFromYmdHms .debug (2011) (12) (09) (1) (15) (F64.rnd ((5456 : Int) / (1000 : Int) : Rat))).bind fun x => ((Time.tryFromHms .debug (1) (20) (F64.rnd ((3023 : Int) / (100 : Int) : Rat))).bind fun a0 => Timestamp.addTime .debug x a0)).bind fun x => Timestamp.format .debug junk x DateStyle.iso DateOrder.ymd) : Res Bytes) (Res.ok b!"2011-12-09 02:35:35.686") := by decide +kernel
example : same (((Date.tryFromYmd .debug (2020) (1) (20)).bind fun x => Date.addDays  x (11)) : Res Date) (Date.tryFromYmd .debug (2020) (1) (31)) := by decide +kernel
example : same (((Date.tryFromYmd .debug (2020) (1) (20)).bind fun x => Date.addDays  x (11)) : Res Date) (Date.tryFromYmd .debug (2020) (1) (31)) := by decide +kernel
example : same (((Res.ok (⟨(-2147483648)⟩ : Date)).bind fun x => Date.addDays  x (11)) : Res Date) (Res.ok (⟨(-2147483648)⟩ : Date)) := by decide +kernel
example : same (((Res.ok (⟨2147483647⟩ : Date)).bind fun x => Date.addDays  x (11)) : Res Date) (Res.ok (⟨2147483647⟩ : Date)) := by decide +kernel
example : same (((Res.ok (isErr ((Date.tryFromYmd .debug (5874897) (12) (31)).bind fun x => Date.addDays  x (1)))) : Res Bool)) (.ok true) := by decide +kernel
example : same (((Date.tryFromYmd .debug (2010) (10) (29)).bind fun x => ((Interval.tryFromYmwdHms (1) (1) (1) (2) (25) (15) (F64.rnd ((5456 : Int) / (1000 : Int) : Rat))).bind fun a0 => Date.addInterval .debug x a0)) : Res Timestamp) (Timestamp.tryFromYmdHms .debug (2011) (12) (09) (1) (15) (F64.rnd ((5456 : Int) / (1000 : Int) : Rat))) := by decide +kernel
example : same ((((Date.tryFromYmd .debug (2010) (10) (29)).bind fun x => ((Interval.tryFromYmwdHms (1) (1) (1) (2) (25) (15) (F64.rnd ((5456 : Int) / (1000 : Int) : Rat))).bind fun a0 => Date.addInterval .debug x a0)).bind fun x => Timestamp.format .debug junk x DateStyle.iso DateOrder.ymd) : Res Bytes) (Res.ok b!"2011-12-09 01:15:05.456") := by decide +kernel
example : same ((((Res.ok (⟨(-2147483648)⟩ : Date)).bind fun x => ((Interval.tryFromYmwdHms (1) (1) (1) (2) (25) (15) (F64.rnd ((5456 : Int) / (1000 : Int) : Rat))).bind fun a0 => Date.addInterval .debug x a0)).bind fun x => Timestamp.format .debug junk x DateStyle.iso DateOrder.ymd) : Res Bytes) (Res.ok b!"-infinity") := by decide +kernel
example : same (((Res.ok (isErr ((Date.tryFromYmd .debug (5874897) (10) (29)).bind fun x => ((Interval.tryFromYmwdHms (1) (1) (1) (2) (25) (15) (F64.rnd ((5456 : Int) / (1000 : Int) : Rat))).bind fun a0 => Date.addInterval .debug x a0)))) : Res Bool)) (.ok true) := by decide +kernel
example : same (((Date.tryFromYmd .debug (2010) (10) (29)).bind fun x => ((Time.tryFromHms .debug (1) (25) (F64.rnd ((3456 : Int) / (100 : Int) : Rat))).bind fun a0 => Date.addTime .debug x a0)) : Res Timestamp) (Timestamp.tryFromYmdHms .debug (2010) (10) (29) (1) (25) (F64.rnd ((3456 : Int) / (100 : Int) : Rat))) := by decide +kernel
example : same ((((Date.tryFromYmd .debug (2010) (10) (29)).bind fun x => ((Time.tryFromHms .debug (1) (25) (F64.rnd ((3456 : Int) / (100 : Int) : Rat))).bind fun a0 => Date.addTime .debug x a0)).bind fun x => Timestamp.format .debug junk x DateStyle.iso DateOrder.ymd) : Res Bytes) (Res.ok b!"2010-10-29 01:25:34.56") := by decide +kernel
example : same ((((Res.ok (⟨(-2147483648)⟩ : Date)).bind fun x => ((Time.tryFromHms .debug (1) (25) (F64.rnd ((3456 : Int) / (100 : Int) : Rat))).bind fun a0 => Date.addTime .debug x a0)).bind fun x => Timestamp.format .debug junk x DateStyle.iso DateOrder.ymd) : Res Bytes) (Res.ok b!"-infinity") := by decide +kernel
example : same ((((Res.ok (⟨2147483647⟩ : Date)).bind fun x => ((Time.tryFromHms .debug (1) (25) (F64.rnd ((3456 : Int) / (100 : Int) : Rat))).bind fun a0 => Date.addTime .debug x a0)).bind fun x => Timestamp.format .debug junk x DateStyle.iso DateOrder.ymd) : Res Bytes) (Res.ok b!"infinity") := by decide +kernel
example : same ((((Interval.tryFromYmwdHms (1) (1) (1) (2) (25) (15) (F64.rnd ((5456 : Int) / (1000 : Int) : Rat))).bind fun x => ((Interval.tryFromYmwdHms (2) (40) (6) (31) (25) (15) (F64.rnd ((5456 : Int) / (1000 : Int) : Rat))).bind fun a0 => Interval.addInterval  x a0)).bind fun x => Interval.format .debug junk x IntervalStyle.iso8601) : Res Bytes) (Res.ok b!"P6Y5M82DT50H30M10.912S") := by decide +kernel
example : same (((Res.ok (isErr ((Interval.tryFromYmwdHms (1) (1) (1) (2) (25) (15) (F64.rnd ((5456 : Int) / (1000 : Int) : Rat))).bind fun x => ((Interval.tryFromYmwdHms (0) (2147483647) (6) (31) (25) (15) (F64.rnd ((5456 : Int) / (1000 : Int) : Rat))).bind fun a0 => Interval.addInterval  x a0)))) : Res Bool)) (.ok true) := by decide +kernel
example : same (((Res.ok (isErr ((Interval.tryFromYmwdHms (1) (1) (1) (2) (25) (15) (F64.rnd ((5456 : Int) / (1000 : Int) : Rat))).bind fun x => ((Interval.tryFromYmwdHms (0) (10) (0) (2147483647) (25) (15) (F64.rnd ((5456 : Int) / (1000 : Int) : Rat))).bind fun a0 => Interval.addInterval  x a0)))) : Res Bool)) (.ok true) := by decide +kernel
example : same ((((Timestamp.tryFromYmdHms .debug (2011) (12) (09) (1) (15) (F64.rnd ((5456 : Int) / (1000 : Int) : Rat))).bind fun x => ((Interval.tryFromYmwdHms (1) (1) (1) (2) (25) (15) (F64.rnd ((5456 : Int) / (1000 : Int) : Rat))).bind fun a0 => Timestamp.addInterval .debug x a0)).bind fun x => Timestamp.format .debug junk x DateStyle.iso DateOrder.ymd) : Res Bytes) (Res.ok b!"2013-01-19 02:30:10.912") := by decide +kernel
example : same ((((Time.tryFromHms .debug (1) (25) (F64.rnd ((3456 : Int) / (100 : Int) : Rat))).bind fun x => ((Interval.tryFromYmwdHms (1) (1) (1) (2) (25) (15) (F64.rnd ((5456 : Int) / (1000 : Int) : Rat))).bind fun a0 => Time.addInterval .debug x a0)).bind fun x => Time.format .debug junk x DateStyle.iso) : Res Bytes) (Res.ok b!"02:40:40.016") := by decide +kernel
example : same ((((Res.ok (⟨-30000000⟩ : Time)).bind fun x => ((Interval.tryFromStr .debug .number Caches.new b!"@ 1 day" (-1) IntervalStyle.postgres).bind fun a0 => Time.addInterval .debug x a0)).bind fun x => Time.format .debug junk x DateStyle.iso) : Res Bytes) (Res.ok b!"23:59:30") := by decide +kernel
example : same ((((Interval.tryFromYmwdHms (12) (23) (6) (31) (25) (15) (F64.rnd ((5456 : Int) / (1000 : Int) : Rat))).bind fun x => Interval.negate  x ).bind fun x => Interval.format .debug junk x IntervalStyle.iso8601) : Res Bytes) (Res.ok b!"P-13Y-11M-73DT-25H-15M-5.456S") := by decide +kernel
example : same (((Res.ok (isErr ((Res.ok (⟨12, 34, (-9223372036854775808)⟩ : Interval)).bind fun x => Interval.negate  x ))) : Res Bool)) (.ok true) := by decide +kernel
example : same (((Res.ok (isErr ((Res.ok (⟨12, 34, (-9223372036854775808)⟩ : Interval)).bind fun x => Interval.negate  x ))) : Res Bool)) (.ok true) := by decide +kernel
example : same (((Res.ok (isErr ((Res.ok (⟨12, (-2147483648), 23⟩ : Interval)).bind fun x => Interval.negate  x ))) : Res Bool)) (.ok true) := by decide +kernel
example : same (((Res.ok (isErr ((Res.ok (⟨(-2147483648), 23, 23⟩ : Interval)).bind fun x => Interval.negate  x ))) : Res Bool)) (.ok true) := by decide +kernel
example : same (((Date.tryFromYmd .debug (2020) (10) (1)).bind fun x => ((Date.tryFromYmd .debug (2000) (2) (28)).bind fun a0 => Date.subDate .debug x a0)) : Res Int) (Res.ok (7521 : Int)) := by decide +kernel
example : same (((Date.tryFromYmd .debug (2000) (2) (28)).bind fun x => ((Date.tryFromYmd .debug (2020) (10) (1)).bind fun a0 => Date.subDate .debug x a0)) : Res Int) (Res.ok (-7521 : Int)) := by decide +kernel
example : same (((Res.ok (isErr ((Res.ok (⟨(-2147483648)⟩ : Date)).bind fun x => ((Date.tryFromYmd .debug (2000) (2) (28)).bind fun a0 => Date.subDate .debug x a0)))) : Res Bool)) (.ok true) := by decide +kernel
example : same (((Res.ok (isErr ((Date.tryFromYmd .debug (2000) (2) (28)).bind fun x => ((Res.ok (⟨(-2147483648)⟩ : Date)).bind fun a0 => Date.subDate .debug x a0)))) : Res Bool)) (.ok true) := by decide +kernel
example : same ((((Date.tryFromYmd .debug (2020) (10) (1)).bind fun x => Date.subDays  x (2)).bind fun x => Date.format .debug junk x DateStyle.iso DateOrder.ymd) : Res Bytes) (Res.ok b!"2020-09-29") := by decide +kernel
example : same ((((Res.ok (⟨(-2147483648)⟩ : Date)).bind fun x => Date.subDays  x (2)).bind fun x => Date.format .debug junk x DateStyle.iso DateOrder.ymd) : Res Bytes) (Res.ok b!"-infinity") := by decide +kernel
example : same (((Res.ok (isErr ((Res.ok (⟨(-2147483648) + 1⟩ : Date)).bind fun x => Date.subDays  x (2)))) : Res Bool)) (.ok true) := by decide +kernel
example : same ((((Date.tryFromYmd .debug (2020) (10) (1)).bind fun x => ((Interval.tryFromYmwdHms (1) (2) (0) (34) (10) (20) (F64.rnd ((34678 : Int) / (1000 : Int) : Rat))).bind fun a0 => Date.subInterval .debug x a0)).bind fun x => Timestamp.format .debug junk x DateStyle.iso DateOrder.ymd) : Res Bytes) (Res.ok b!"2019-06-27 13:39:25.322") := by decide +kernel
example : same ((((Time.tryFromHms .debug (10) (20) (F64.rnd ((45567 : Int) / (1000 : Int) : Rat))).bind fun x => ((Time.tryFromHms .debug (4) (50) (F64.rnd ((5456 : Int) / (100 : Int) : Rat))).bind fun a0 => Res.ok (Time.subTime  x a0))).bind fun x => Interval.format .debug junk x IntervalStyle.iso8601) : Res Bytes) (Res.ok b!"PT5H29M51.007S") := by decide +kernel
example : same ((((Time.tryFromHms .debug (10) (20) (F64.rnd ((45567 : Int) / (1000 : Int) : Rat))).bind fun x => ((Interval.tryFromYmwdHms (20) (13) (2) (29) (30) (67) (F64.rnd ((6778 : Int) / (100 : Int) : Rat))).bind fun a0 => Time.subInterval .debug x a0)).bind fun x => Time.format .debug junk x DateStyle.iso) : Res Bytes) (Res.ok b!"03:12:37.787") := by decide +kernel
example : same ((((Timestamp.tryFromYmdHms .debug (2010) (7) (14) (23) (14) (F64.rnd ((34678 : Int) / (1000 : Int) : Rat))).bind fun x => ((Interval.tryFromYmwdHms (20) (13) (2) (29) (30) (67) (F64.rnd ((6778 : Int) / (100 : Int) : Rat))).bind fun a0 => Timestamp.subInterval .debug x a0)).bind fun x => Timestamp.format .debug junk x DateStyle.iso DateOrder.ymd) : Res Bytes) (Res.ok b!"1989-05-01 16:06:26.898") := by decide +kernel
example : same ((((Interval.tryFromYmwdHms (20) (13) (2) (29) (30) (67) (F64.rnd ((6778 : Int) / (100 : Int) : Rat))).bind fun x => ((Interval.tryFromYmwdHms (10) (26) (4) (23) (45) (34) (F64.rnd ((10078 : Int) / (100 : Int) : Rat))).bind fun a0 => Interval.subInterval  x a0)).bind fun x => Interval.format .debug junk x IntervalStyle.iso8601) : Res Bytes) (Res.ok b!"P8Y11M-8DT-14H-27M-33S") := by decide +kernel
example : same (((Res.ok (isErr ((Interval.tryFromYmwdHms (1) ((-2147483648) + 1) (1) (1) (1) (1) (F64.rnd ((6778 : Int) / (100 : Int) : Rat))).bind fun x => ((Interval.tryFromYmwdHms (10) (26) (4) (23) (45) (34) (F64.rnd ((10078 : Int) / (100 : Int) : Rat))).bind fun a0 => Interval.subInterval  x a0)))) : Res Bool)) (.ok true) := by decide +kernel
example : same (((Res.ok (isErr ((Interval.tryFromYmwdHms (1) (1) (1) ((-2147483648) + 10) (1) (1) (F64.rnd ((6778 : Int) / (100 : Int) : Rat))).bind fun x => ((Interval.tryFromYmwdHms (10) (26) (4) (23) (45) (34) (F64.rnd ((10078 : Int) / (100 : Int) : Rat))).bind fun a0 => Interval.subInterval  x a0)))) : Res Bool)) (.ok true) := by decide +kernel
example : same ((((Timestamp.tryFromYmdHms .debug (2010) (7) (14) (23) (14) (F64.rnd ((34678 : Int) / (1000 : Int) : Rat))).bind fun x => ((Timestamp.tryFromYmdHms .debug (2008) (3) (31) (2) (14) (F64.rnd ((16678 : Int) / (1000 : Int) : Rat))).bind fun a0 => Timestamp.subTimestamp .debug x a0)).bind fun x => Interval.format .debug junk x IntervalStyle.iso8601) : Res Bytes) (Res.ok b!"P835DT21H18S") := by decide +kernel
example : same (((Res.ok (isErr ((Res.ok (⟨(-9223372036854775808)⟩ : Timestamp)).bind fun x => ((Timestamp.tryFromYmdHms .debug (2008) (3) (31) (2) (14) (F64.rnd ((16678 : Int) / (1000 : Int) : Rat))).bind fun a0 => Timestamp.subTimestamp .debug x a0)))) : Res Bool)) (.ok true) := by decide +kernel
example : same (((Res.ok (isErr ((Res.ok (⟨9223372036854775807⟩ : Timestamp)).bind fun x => ((Timestamp.tryFromYmdHms .debug (2008) (3) (31) (2) (14) (F64.rnd ((16678 : Int) / (1000 : Int) : Rat))).bind fun a0 => Timestamp.subTimestamp .debug x a0)))) : Res Bool)) (.ok true) := by decide +kernel
example : same ((((Interval.tryFromYmwdHms (20) (13) (2) (29) (30) (67) (F64.rnd ((6778 : Int) / (100 : Int) : Rat))).bind fun x => Interval.mulF64 .debug x (F64.rnd ((80 : Int) / (10 : Int) : Rat))).bind fun x => Interval.format .debug junk x IntervalStyle.iso8601) : Res Bytes) (Res.ok b!"P168Y8M344DT249H5M2.24S") := by decide +kernel
example : same ((((Interval.tryFromYmwdHms (20) (13) (2) (29) (30) (67) (F64.rnd ((6778 : Int) / (100 : Int) : Rat))).bind fun x => Interval.mulF64 .debug x (F64.rnd ((8000 : Int) / (10 : Int) : Rat))).bind fun x => Interval.format .debug junk x IntervalStyle.iso8601) : Res Bytes) (Res.ok b!"P16866Y8M34400DT24908H23M44S") := by decide +kernel
example : same ((((Interval.tryFromYmwdHms (0) (13) (2) (29) (30) (67) (F64.rnd ((6778 : Int) / (100 : Int) : Rat))).bind fun x => Interval.mulF64 .debug x (F64.rnd ((88 : Int) / (100 : Int) : Rat))).bind fun x => Interval.format .debug junk x IntervalStyle.iso8601) : Res Bytes) (Res.ok b!"P11M51DT28H21M33.2464S") := by decide +kernel
example : same (((Res.ok (isErr ((Interval.tryFromYmwdHms (0) (0) (0) (0) (12) (67) (F64.rnd ((6778 : Int) / (100 : Int) : Rat))).bind fun x => Interval.mulF64 .debug x (F64.fin ((2^1024-2^971 : Nat) : Int))))) : Res Bool)) (.ok true) := by decide +kernel
example : same (((Res.ok (isErr ((Interval.tryFromYmwdHms (0) (2147483647) (2) (29) (30) (67) (F64.rnd ((6778 : Int) / (100 : Int) : Rat))).bind fun x => Interval.mulF64 .debug x (F64.inf false)))) : Res Bool)) (.ok true) := by decide +kernel
example : same (((Res.ok (isErr ((Interval.tryFromYmwdHms (0) (2147483647) (2) (29) (30) (67) (F64.rnd ((6778 : Int) / (100 : Int) : Rat))).bind fun x => Interval.mulF64 .debug x (F64.rnd ((80 : Int) / (10 : Int) : Rat))))) : Res Bool)) (.ok true) := by decide +kernel
example : same (((Res.ok (isErr ((Interval.tryFromYmwdHms (0) ((-2147483648)) (2) (29) (30) (67) (F64.rnd ((6778 : Int) / (100 : Int) : Rat))).bind fun x => Interval.mulF64 .debug x (F64.rnd ((80 : Int) / (10 : Int) : Rat))))) : Res Bool)) (.ok true) := by decide +kernel
example : same (((Res.ok (isErr ((Interval.tryFromYmwdHms (0) (0) (0) (2147483647) (30) (67) (F64.rnd ((6778 : Int) / (100 : Int) : Rat))).bind fun x => Interval.mulF64 .debug x (F64.rnd ((80 : Int) / (10 : Int) : Rat))))) : Res Bool)) (.ok true) := by decide +kernel
example : same (((Res.ok (isErr ((Interval.tryFromYmwdHms (0) (0) (0) ((-2147483648)) (30) (67) (F64.rnd ((6778 : Int) / (100 : Int) : Rat))).bind fun x => Interval.mulF64 .debug x (F64.rnd ((80 : Int) / (10 : Int) : Rat))))) : Res Bool)) (.ok true) := by decide +kernel
example : same ((((Interval.tryFromYmwdHms (20) (13) (2) (29) (30) (67) (F64.rnd ((6778 : Int) / (100 : Int) : Rat))).bind fun x => Interval.divF64 .debug x (F64.rnd ((80 : Int) / (10 : Int) : Rat))).bind fun x => Interval.format .debug junk x IntervalStyle.iso8601) : Res Bytes) (Res.ok b!"P2Y7M24DT6H53M30.9725S") := by decide +kernel
example : same (((Res.ok (isErr ((Interval.tryFromYmwdHms (20) (13) (2) (29) (30) (67) (F64.rnd ((6778 : Int) / (100 : Int) : Rat))).bind fun x => Interval.divF64 .debug x (F64.rnd ((0 : Int) / (10 : Int) : Rat))))) : Res Bool)) (.ok true) := by decide +kernel
example : same ((((Interval.tryFromYmwdHms (20) (13) (0) (2147483647) (30) (67) (F64.rnd ((6778 : Int) / (100 : Int) : Rat))).bind fun x => Interval.divF64 .debug x (F64.rnd ((80 : Int) / (10 : Int) : Rat))).bind fun x => Interval.format .debug junk x IntervalStyle.iso8601) : Res Bytes) (Res.ok b!"P2Y7M268435474DT18H53M30.9725S") := by decide +kernel
example : same (((Time.tryFromHms .debug (23) (45) (F64.rnd ((5678 : Int) / (100 : Int) : Rat))).bind fun x => (Time.tryFromHms .debug (12) (56) (F64.rnd ((5678 : Int) / (100 : Int) : Rat))).bind fun y => Res.ok (decide ((Time.cmp x y == .gt) = true)) : Res Bool)) (.ok true) := by decide +kernel
example : same (((Time.tryFromHms .debug (23) (45) (F64.rnd ((5678 : Int) / (100 : Int) : Rat))).bind fun x => (Time.tryFromHms .debug (12) (56) (F64.rnd ((5678 : Int) / (100 : Int) : Rat))).bind fun y => Res.ok (decide ((Time.cmp x y != .lt) = true)) : Res Bool)) (.ok true) := by decide +kernel
example : same (((Time.tryFromHms .debug (23) (45) (F64.rnd ((5678 : Int) / (100 : Int) : Rat))).bind fun x => (Time.tryFromHms .debug (23) (45) (F64.rnd ((5678 : Int) / (100 : Int) : Rat))).bind fun y => Res.ok (decide ((x == y) = true)) : Res Bool)) (.ok true) := by decide +kernel
example : same (((Time.tryFromHms .debug (23) (45) (F64.rnd ((5678 : Int) / (100 : Int) : Rat))).bind fun x => (Time.tryFromHms .debug (12) (56) (F64.rnd ((5678 : Int) / (100 : Int) : Rat))).bind fun y => Res.ok (decide ((x != y) = true)) : Res Bool)) (.ok true) := by decide +kernel
example : same (((Time.tryFromHms .debug (12) (56) (F64.rnd ((5678 : Int) / (100 : Int) : Rat))).bind fun x => (Time.tryFromHms .debug (23) (45) (F64.rnd ((5678 : Int) / (100 : Int) : Rat))).bind fun y => Res.ok (decide ((Time.cmp x y == .lt) = true)) : Res Bool)) (.ok true) := by decide +kernel
example : same (((Time.tryFromHms .debug (12) (56) (F64.rnd ((5678 : Int) / (100 : Int) : Rat))).bind fun x => (Time.tryFromHms .debug (23) (45) (F64.rnd ((5678 : Int) / (100 : Int) : Rat))).bind fun y => Res.ok (decide ((Time.cmp x y != .gt) = true)) : Res Bool)) (.ok true) := by decide +kernel
example : same (((Time.tryFromHms .debug (24) (0) (F64.rnd ((0 : Int) / (10 : Int) : Rat))).bind fun x => (Time.tryFromHms .debug (0) (0) (F64.rnd ((0 : Int) / (10 : Int) : Rat))).bind fun y => Res.ok (decide ((Time.cmp x y == .gt) = true)) : Res Bool)) (.ok true) := by decide +kernel
example : same (((Time.tryFromHms .debug (24) (0) (F64.rnd ((0 : Int) / (10 : Int) : Rat))).bind fun x => (Time.tryFromHms .debug (0) (0) (F64.rnd ((0 : Int) / (10 : Int) : Rat))).bind fun y => Res.ok (decide ((Time.cmp x y != .lt) = true)) : Res Bool)) (.ok true) := by decide +kernel
example : same (((Time.tryFromHms .debug (24) (0) (F64.rnd ((0 : Int) / (10 : Int) : Rat))).bind fun x => (Time.tryFromHms .debug (24) (0) (F64.rnd ((0 : Int) / (10 : Int) : Rat))).bind fun y => Res.ok (decide ((x == y) = true)) : Res Bool)) (.ok true) := by decide +kernel
example : same (((Time.tryFromHms .debug (24) (0) (F64.rnd ((0 : Int) / (10 : Int) : Rat))).bind fun x => (Time.tryFromHms .debug (0) (0) (F64.rnd ((0 : Int) / (10 : Int) : Rat))).bind fun y => Res.ok (decide ((x != y) = true)) : Res Bool)) (.ok true) := by decide +kernel
example : same (((Time.tryFromHms .debug (0) (0) (F64.rnd ((0 : Int) / (10 : Int) : Rat))).bind fun x => (Time.tryFromHms .debug (24) (0) (F64.rnd ((0 : Int) / (10 : Int) : Rat))).bind fun y => Res.ok (decide ((Time.cmp x y == .lt) = true)) : Res Bool)) (.ok true) := by decide +kernel
example : same (((Time.tryFromHms .debug (0) (0) (F64.rnd ((0 : Int) / (10 : Int) : Rat))).bind fun x => (Time.tryFromHms .debug (24) (0) (F64.rnd ((0 : Int) / (10 : Int) : Rat))).bind fun y => Res.ok (decide ((Time.cmp x y != .gt) = true)) : Res Bool)) (.ok true) := by decide +kernel
example : same (((Time.tryFromHms .debug (24) (0) (F64.rnd ((0 : Int) / (10 : Int) : Rat))).bind fun x => (Time.tryFromHms .debug (12) (1) (F64.rnd ((340 : Int) / (10 : Int) : Rat))).bind fun y => Res.ok (decide ((Time.cmp x y == .gt) = true)) : Res Bool)) (.ok true) := by decide +kernel
example : same (((Time.tryFromHms .debug (24) (0) (F64.rnd ((0 : Int) / (10 : Int) : Rat))).bind fun x => (Time.tryFromHms .debug (12) (1) (F64.rnd ((340 : Int) / (10 : Int) : Rat))).bind fun y => Res.ok (decide ((Time.cmp x y != .lt) = true)) : Res Bool)) (.ok true) := by decide +kernel
example : same (((Time.tryFromHms .debug (24) (0) (F64.rnd ((0 : Int) / (10 : Int) : Rat))).bind fun x => (Time.tryFromHms .debug (24) (0) (F64.rnd ((0 : Int) / (10 : Int) : Rat))).bind fun y => Res.ok (decide ((x == y) = true)) : Res Bool)) (.ok true) := by decide +kernel
example : same (((Time.tryFromHms .debug (24) (0) (F64.rnd ((0 : Int) / (10 : Int) : Rat))).bind fun x => (Time.tryFromHms .debug (12) (1) (F64.rnd ((340 : Int) / (10 : Int) : Rat))).bind fun y => Res.ok (decide ((x != y) = true)) : Res Bool)) (.ok true) := by decide +kernel
example : same (((Time.tryFromHms .debug (12) (1) (F64.rnd ((340 : Int) / (10 : Int) : Rat))).bind fun x => (Time.tryFromHms .debug (24) (0) (F64.rnd ((0 : Int) / (10 : Int) : Rat))).bind fun y => Res.ok (decide ((Time.cmp x y == .lt) = true)) : Res Bool)) (.ok true) := by decide +kernel
example : same (((Time.tryFromHms .debug (12) (1) (F64.rnd ((340 : Int) / (10 : Int) : Rat))).bind fun x => (Time.tryFromHms .debug (24) (0) (F64.rnd ((0 : Int) / (10 : Int) : Rat))).bind fun y => Res.ok (decide ((Time.cmp x y != .gt) = true)) : Res Bool)) (.ok true) := by decide +kernel
example : same (((Date.tryFromYmd .debug (2019) (7) (2)).bind fun x => (Date.tryFromYmd .debug (2018) (8) (31)).bind fun y => Res.ok (decide ((Date.cmp x y == .gt) = true)) : Res Bool)) (.ok true) := by decide +kernel
example : same (((Date.tryFromYmd .debug (2019) (7) (2)).bind fun x => (Date.tryFromYmd .debug (2018) (8) (31)).bind fun y => Res.ok (decide ((Date.cmp x y != .lt) = true)) : Res Bool)) (.ok true) := by decide +kernel
example : same (((Date.tryFromYmd .debug (2019) (7) (2)).bind fun x => (Date.tryFromYmd .debug (2019) (7) (2)).bind fun y => Res.ok (decide ((x == y) = true)) : Res Bool)) (.ok true) := by decide +kernel
example : same (((Date.tryFromYmd .debug (2019) (7) (2)).bind fun x => (Date.tryFromYmd .debug (2018) (8) (31)).bind fun y => Res.ok (decide ((x != y) = true)) : Res Bool)) (.ok true) := by decide +kernel
example : same (((Date.tryFromYmd .debug (2018) (8) (31)).bind fun x => (Date.tryFromYmd .debug (2019) (7) (2)).bind fun y => Res.ok (decide ((Date.cmp x y == .lt) = true)) : Res Bool)) (.ok true) := by decide +kernel
example : same (((Date.tryFromYmd .debug (2018) (8) (31)).bind fun x => (Date.tryFromYmd .debug (2019) (7) (2)).bind fun y => Res.ok (decide ((Date.cmp x y != .gt) = true)) : Res Bool)) (.ok true) := by decide +kernel
example : same (((Timestamp.tryFromYmdHms .debug (2020) (1) (2) (1) (23) (F64.rnd ((3478 : Int) / (100 : Int) : Rat))).bind fun x => (Timestamp.tryFromYmdHms .debug (2019) (10) (12) (11) (43) (F64.rnd ((5478 : Int) / (100 : Int) : Rat))).bind fun y => Res.ok (decide ((Timestamp.cmp x y == .gt) = true)) : Res Bool)) (.ok true) := by decide +kernel
example : same (((Timestamp.tryFromYmdHms .debug (2020) (1) (2) (1) (23) (F64.rnd ((3478 : Int) / (100 : Int) : Rat))).bind fun x => (Timestamp.tryFromYmdHms .debug (2019) (10) (12) (11) (43) (F64.rnd ((5478 : Int) / (100 : Int) : Rat))).bind fun y => Res.ok (decide ((Timestamp.cmp x y != .lt) = true)) : Res Bool)) (.ok true) := by decide +kernel
example : same (((Timestamp.tryFromYmdHms .debug (2020) (1) (2) (1) (23) (F64.rnd ((3478 : Int) / (100 : Int) : Rat))).bind fun x => (Timestamp.tryFromYmdHms .debug (2020) (1) (2) (1) (23) (F64.rnd ((3478 : Int) / (100 : Int) : Rat))).bind fun y => Res.ok (decide ((x == y) = true)) : Res Bool)) (.ok true) := by decide +kernel
example : same (((Timestamp.tryFromYmdHms .debug (2020) (1) (2) (1) (23) (F64.rnd ((3478 : Int) / (100 : Int) : Rat))).bind fun x => (Timestamp.tryFromYmdHms .debug (2019) (10) (12) (11) (43) (F64.rnd ((5478 : Int) / (100 : Int) : Rat))).bind fun y => Res.ok (decide ((x != y) = true)) : Res Bool)) (.ok true) := by decide +kernel
example : same (((Timestamp.tryFromYmdHms .debug (2019) (10) (12) (11) (43) (F64.rnd ((5478 : Int) / (100 : Int) : Rat))).bind fun x => (Timestamp.tryFromYmdHms .debug (2020) (1) (2) (1) (23) (F64.rnd ((3478 : Int) / (100 : Int) : Rat))).bind fun y => Res.ok (decide ((Timestamp.cmp x y == .lt) = true)) : Res Bool)) (.ok true) := by decide +kernel
example : same (((Timestamp.tryFromYmdHms .debug (2019) (10) (12) (11) (43) (F64.rnd ((5478 : Int) / (100 : Int) : Rat))).bind fun x => (Timestamp.tryFromYmdHms .debug (2020) (1) (2) (1) (23) (F64.rnd ((3478 : Int) / (100 : Int) : Rat))).bind fun y => Res.ok (decide ((Timestamp.cmp x y != .gt) = true)) : Res Bool)) (.ok true) := by decide +kernel
example : same (((Interval.tryFromYmwdHms (10) (1) (2) (1) (23) (56) (F64.rnd ((3478 : Int) / (100 : Int) : Rat))).bind fun x => (Interval.tryFromYmwdHms (8) (10) (5) (12) (11) (43) (F64.rnd ((5478 : Int) / (100 : Int) : Rat))).bind fun y => Res.ok (decide ((Interval.cmp x y == .gt) = true)) : Res Bool)) (.ok true) := by decide +kernel
example : same (((Interval.tryFromYmwdHms (10) (1) (2) (1) (23) (56) (F64.rnd ((3478 : Int) / (100 : Int) : Rat))).bind fun x => (Interval.tryFromYmwdHms (8) (10) (5) (12) (11) (43) (F64.rnd ((5478 : Int) / (100 : Int) : Rat))).bind fun y => Res.ok (decide ((Interval.cmp x y != .lt) = true)) : Res Bool)) (.ok true) := by decide +kernel
example : same (((Interval.tryFromYmwdHms (10) (1) (2) (1) (23) (56) (F64.rnd ((3478 : Int) / (100 : Int) : Rat))).bind fun x => (Interval.tryFromYmwdHms (10) (1) (2) (1) (23) (56) (F64.rnd ((3478 : Int) / (100 : Int) : Rat))).bind fun y => Res.ok (decide ((x == y) = true)) : Res Bool)) (.ok true) := by decide +kernel
example : same (((Interval.tryFromYmwdHms (10) (1) (2) (1) (23) (56) (F64.rnd ((3478 : Int) / (100 : Int) : Rat))).bind fun x => (Interval.tryFromYmwdHms (8) (10) (5) (12) (11) (43) (F64.rnd ((5478 : Int) / (100 : Int) : Rat))).bind fun y => Res.ok (decide ((x != y) = true)) : Res Bool)) (.ok true) := by decide +kernel
example : same (((Interval.tryFromYmwdHms (8) (10) (5) (12) (11) (43) (F64.rnd ((5478 : Int) / (100 : Int) : Rat))).bind fun x => (Interval.tryFromYmwdHms (10) (1) (2) (1) (23) (56) (F64.rnd ((3478 : Int) / (100 : Int) : Rat))).bind fun y => Res.ok (decide ((Interval.cmp x y == .lt) = true)) : Res Bool)) (.ok true) := by decide +kernel
example : same (((Interval.tryFromYmwdHms (8) (10) (5) (12) (11) (43) (F64.rnd ((5478 : Int) / (100 : Int) : Rat))).bind fun x => (Interval.tryFromYmwdHms (10) (1) (2) (1) (23) (56) (F64.rnd ((3478 : Int) / (100 : Int) : Rat))).bind fun y => Res.ok (decide ((Interval.cmp x y != .gt) = true)) : Res Bool)) (.ok true) := by decide +kernel
example : same (((Interval.tryFromYmwdHms (0) (11) (1) (1) (23) (56) (F64.rnd ((3478 : Int) / (100 : Int) : Rat))).bind fun x => (Interval.tryFromYmwdHms (0) (10) (2) (12) (11) (43) (F64.rnd ((5478 : Int) / (100 : Int) : Rat))).bind fun y => Res.ok (decide ((Interval.cmp x y == .gt) = true)) : Res Bool)) (.ok true) := by decide +kernel
example : same (((Interval.tryFromYmwdHms (0) (11) (1) (1) (23) (56) (F64.rnd ((3478 : Int) / (100 : Int) : Rat))).bind fun x => (Interval.tryFromYmwdHms (0) (10) (2) (12) (11) (43) (F64.rnd ((5478 : Int) / (100 : Int) : Rat))).bind fun y => Res.ok (decide ((Interval.cmp x y != .lt) = true)) : Res Bool)) (.ok true) := by decide +kernel
example : same (((Interval.tryFromYmwdHms (0) (11) (1) (1) (23) (56) (F64.rnd ((3478 : Int) / (100 : Int) : Rat))).bind fun x => (Interval.tryFromYmwdHms (0) (11) (1) (1) (23) (56) (F64.rnd ((3478 : Int) / (100 : Int) : Rat))).bind fun y => Res.ok (decide ((x == y) = true)) : Res Bool)) (.ok true) := by decide +kernel
example : same (((Interval.tryFromYmwdHms (0) (11) (1) (1) (23) (56) (F64.rnd ((3478 : Int) / (100 : Int) : Rat))).bind fun x => (Interval.tryFromYmwdHms (0) (10) (2) (12) (11) (43) (F64.rnd ((5478 : Int) / (100 : Int) : Rat))).bind fun y => Res.ok (decide ((x != y) = true)) : Res Bool)) (.ok true) := by decide +kernel
example : same (((Interval.tryFromYmwdHms (0) (10) (2) (12) (11) (43) (F64.rnd ((5478 : Int) / (100 : Int) : Rat))).bind fun x => (Interval.tryFromYmwdHms (0) (11) (1) (1) (23) (56) (F64.rnd ((3478 : Int) / (100 : Int) : Rat))).bind fun y => Res.ok (decide ((Interval.cmp x y == .lt) = true)) : Res Bool)) (.ok true) := by decide +kernel
example : same (((Interval.tryFromYmwdHms (0) (10) (2) (12) (11) (43) (F64.rnd ((5478 : Int) / (100 : Int) : Rat))).bind fun x => (Interval.tryFromYmwdHms (0) (11) (1) (1) (23) (56) (F64.rnd ((3478 : Int) / (100 : Int) : Rat))).bind fun y => Res.ok (decide ((Interval.cmp x y != .gt) = true)) : Res Bool)) (.ok true) := by decide +kernel
example : same (((Interval.tryFromYmwdHms (0) (0) (3) (1) (23) (56) (F64.rnd ((3478 : Int) / (100 : Int) : Rat))).bind fun x => (Interval.tryFromYmwdHms (0) (0) (2) (6) (11) (43) (F64.rnd ((5478 : Int) / (100 : Int) : Rat))).bind fun y => Res.ok (decide ((Interval.cmp x y == .gt) = true)) : Res Bool)) (.ok true) := by decide +kernel
example : same (((Interval.tryFromYmwdHms (0) (0) (0) (7) (22) (56) (F64.rnd ((3478 : Int) / (100 : Int) : Rat))).bind fun x => (Interval.tryFromYmwdHms (0) (0) (0) (6) (23) (43) (F64.rnd ((5478 : Int) / (100 : Int) : Rat))).bind fun y => Res.ok (decide ((Interval.cmp x y == .gt) = true)) : Res Bool)) (.ok true) := by decide +kernel
example : same (((Interval.tryFromYmwdHms (0) (0) (0) (0) (23) (56) (F64.rnd ((3478 : Int) / (100 : Int) : Rat))).bind fun x => (Interval.tryFromYmwdHms (0) (0) (0) (0) (22) (59) (F64.rnd ((5478 : Int) / (100 : Int) : Rat))).bind fun y => Res.ok (decide ((Interval.cmp x y == .gt) = true)) : Res Bool)) (.ok true) := by decide +kernel
example : same (((Interval.tryFromYmwdHms (0) (0) (0) (0) (0) (56) (F64.rnd ((3478 : Int) / (100 : Int) : Rat))).bind fun x => (Interval.tryFromYmwdHms (0) (0) (0) (0) (0) (47) (F64.rnd ((5478 : Int) / (100 : Int) : Rat))).bind fun y => Res.ok (decide ((Interval.cmp x y == .gt) = true)) : Res Bool)) (.ok true) := by decide +kernel
example : same (((Interval.tryFromYmwdHms (0) (0) (0) (0) (0) (0) (F64.rnd ((5678 : Int) / (100 : Int) : Rat))).bind fun x => (Interval.tryFromYmwdHms (0) (0) (0) (0) (0) (0) (F64.rnd ((5478 : Int) / (100 : Int) : Rat))).bind fun y => Res.ok (decide ((Interval.cmp x y == .gt) = true)) : Res Bool)) (.ok true) := by decide +kernel
example : same (((Interval.tryFromYmwdHms (0) (0) (0) (0) (0) (0) (F64.rnd ((56781 : Int) / (1000 : Int) : Rat))).bind fun x => (Interval.tryFromYmwdHms (0) (0) (0) (0) (0) (0) (F64.rnd ((5678 : Int) / (100 : Int) : Rat))).bind fun y => Res.ok (decide ((Interval.cmp x y == .gt) = true)) : Res Bool)) (.ok true) := by decide +kernel

end RepoTests
