import Verif.Model.Bytes

/-!
# Keyword tables and lookups

src/token.rs, and the two cached lookups of src/parse.rs. The two tables are transcribed entry by
entry in source order.
-/

namespace Pg

/-- src/token.rs:21 `MAX_DATE_FIELDS`. -/
notation "MAX_DATE_FIELDS" => (25 : Nat)
/-- src/token.rs:22 `MAX_TOKEN_LEN`. -/
notation "MAX_TOKEN_LEN" => (10 : Nat)

/-- src/token.rs:88-133 `TokenType`. -/
inductive TokenType where
  | reserv
  | month
  | year
  | day
  | julian
  | tz
  | dtz
  | dyntz
  | ignoreDtf
  | ampm
  | hour
  | minute
  | second
  | millisecond
  | microsecond
  | doy
  | dow
  | units
  | adbc
  | ago
  | absBefore
  | absAfter
  | isodate
  | isotime
  | week
  | decade
  | century
  | millennium
  | dtzmod
  | unknownField
  deriving DecidableEq, Repr

/-- src/token.rs:88-133, the discriminants. -/
def TokenType.code : TokenType → Nat
  | .reserv => 0
  | .month => 1
  | .year => 2
  | .day => 3
  | .julian => 4
  | .tz => 5
  | .dtz => 6
  | .dyntz => 7
  | .ignoreDtf => 8
  | .ampm => 9
  | .hour => 10
  | .minute => 11
  | .second => 12
  | .millisecond => 13
  | .microsecond => 14
  | .doy => 15
  | .dow => 16
  | .units => 17
  | .adbc => 18
  | .ago => 19
  | .absBefore => 20
  | .absAfter => 21
  | .isodate => 22
  | .isotime => 23
  | .week => 24
  | .decade => 25
  | .century => 26
  | .millennium => 27
  | .dtzmod => 28
  | .unknownField => 31

/-- src/token.rs:135-140 `TokenType::mask`, as a bit pattern. -/
def TokenType.mask (t : TokenType) : Nat := 1 <<< t.code

/-- src/token.rs:184-226 `TokenField`; the discriminants are 0 to 37 in this order. -/
inductive TokenField where
  | number
  | string
  | date
  | time
  | tz
  | ago
  | special
  | invalid
  | current
  | early
  | late
  | epoch
  | now
  | yesterday
  | today
  | tomorrow
  | zulu
  | delta
  | second
  | minute
  | hour
  | day
  | week
  | month
  | quarter
  | year
  | decade
  | century
  | millennium
  | millisec
  | microsec
  | julian
  | dow
  | doy
  | tzHour
  | tzMinute
  | isoyear
  | isodow
  deriving DecidableEq, Repr

/-- src/token.rs:184-226, all fields in the order of their discriminants. -/
def TokenField.all : List TokenField :=
  [.number, .string, .date, .time, .tz, .ago, .special, .invalid, .current, .early, .late, .epoch, .now, .yesterday, .today, .tomorrow, .zulu, .delta, .second, .minute, .hour, .day, .week, .month, .quarter, .year, .decade, .century, .millennium, .millisec, .microsec, .julian, .dow, .doy, .tzHour, .tzMinute, .isoyear, .isodow]

/-- src/token.rs:228-233 `TokenField::value`. -/
def TokenField.value (f : TokenField) : Int := (TokenField.all.idxOf f : Nat)

/-- src/token.rs:235-249 `TryFrom<i32> for TokenField`. The range check `value < 0 && value > 37` is
never true, so every value is transmuted; a value outside 0 to 37 would be undefined behaviour and is
a panic here. -/
def TokenField.ofInt (v : Int) : Res TokenField :=
  if v < 0 then .panic
  else match TokenField.all[v.toNat]? with
    | some f => .ok f
    | none => .panic

/-- src/token.rs:54-58 `DateToken`. -/
structure DateToken where
  token : Bytes
  ty : TokenType
  value : Int
  deriving DecidableEq, Repr

/-- src/token.rs:254-536 `DATE_TOKEN_TABLE`. -/
def dateTable : List DateToken := [
  ⟨b!"-infinity", .reserv, 9⟩,
  ⟨b!"acsst", .dtz, 37800⟩,
  ⟨b!"acst", .dtz, -14400⟩,
  ⟨b!"act", .tz, -18000⟩,
  ⟨b!"ad", .adbc, 0⟩,
  ⟨b!"adt", .dtz, -10800⟩,
  ⟨b!"aesst", .dtz, 39600⟩,
  ⟨b!"aest", .tz, 36000⟩,
  ⟨b!"aft", .tz, 16200⟩,
  ⟨b!"ahst", .tz, -36000⟩,
  ⟨b!"akdt", .dtz, -28800⟩,
  ⟨b!"akst", .dtz, -32400⟩,
  ⟨b!"allballs", .reserv, 16⟩,
  ⟨b!"almst", .tz, 25200⟩,
  ⟨b!"almt", .tz, 21600⟩,
  ⟨b!"am", .ampm, 0⟩,
  ⟨b!"amst", .dtz, 18000⟩,
  ⟨b!"amt", .tz, 14400⟩,
  ⟨b!"anast", .dtz, 46800⟩,
  ⟨b!"anat", .tz, 43200⟩,
  ⟨b!"apr", .month, 4⟩,
  ⟨b!"april", .month, 4⟩,
  ⟨b!"art", .tz, -10800⟩,
  ⟨b!"ast", .tz, -14400⟩,
  ⟨b!"at", .ignoreDtf, 0⟩,
  ⟨b!"aug", .month, 8⟩,
  ⟨b!"august", .month, 8⟩,
  ⟨b!"awsst", .dtz, 32400⟩,
  ⟨b!"awst", .tz, 28800⟩,
  ⟨b!"awt", .dtz, -10800⟩,
  ⟨b!"azost", .dtz, 0⟩,
  ⟨b!"azot", .tz, -3600⟩,
  ⟨b!"azst", .dtz, 18000⟩,
  ⟨b!"azt", .tz, 14400⟩,
  ⟨b!"bc", .adbc, 1⟩,
  ⟨b!"bdst", .tz, 7200⟩,
  ⟨b!"bdt", .tz, 21600⟩,
  ⟨b!"bnt", .tz, 28800⟩,
  ⟨b!"bort", .tz, 28800⟩,
  ⟨b!"bot", .tz, -14400⟩,
  ⟨b!"bra", .tz, -10800⟩,
  ⟨b!"bst", .dtz, 3600⟩,
  ⟨b!"bt", .tz, 10800⟩,
  ⟨b!"btt", .tz, 21600⟩,
  ⟨b!"cadt", .dtz, 37800⟩,
  ⟨b!"cast", .tz, 34200⟩,
  ⟨b!"cat", .tz, -36000⟩,
  ⟨b!"cct", .tz, 28800⟩,
  ⟨b!"cdt", .dtz, -18000⟩,
  ⟨b!"cest", .dtz, 7200⟩,
  ⟨b!"cet", .tz, 3600⟩,
  ⟨b!"cetdst", .dtz, 7200⟩,
  ⟨b!"chadt", .dtz, 49500⟩,
  ⟨b!"chast", .tz, 45900⟩,
  ⟨b!"ckt", .tz, 43200⟩,
  ⟨b!"clst", .dtz, -10800⟩,
  ⟨b!"clt", .tz, -14400⟩,
  ⟨b!"cot", .tz, -18000⟩,
  ⟨b!"cst", .tz, -21600⟩,
  ⟨b!"current", .reserv, 8⟩,
  ⟨b!"cvt", .tz, 25200⟩,
  ⟨b!"cxt", .tz, 25200⟩,
  ⟨b!"d", .units, 21⟩,
  ⟨b!"davt", .tz, 25200⟩,
  ⟨b!"ddut", .tz, 36000⟩,
  ⟨b!"dec", .month, 12⟩,
  ⟨b!"december", .month, 12⟩,
  ⟨b!"dnt", .tz, 3600⟩,
  ⟨b!"dow", .units, 32⟩,
  ⟨b!"doy", .units, 33⟩,
  ⟨b!"dst", .dtzmod, 3600⟩,
  ⟨b!"easst", .dtz, -18000⟩,
  ⟨b!"east", .tz, -21600⟩,
  ⟨b!"eat", .tz, 10800⟩,
  ⟨b!"edt", .dtz, -14400⟩,
  ⟨b!"eest", .dtz, 10800⟩,
  ⟨b!"eet", .tz, 7200⟩,
  ⟨b!"eetdst", .dtz, 10800⟩,
  ⟨b!"egst", .dtz, 0⟩,
  ⟨b!"egt", .tz, -3600⟩,
  ⟨b!"epoch", .reserv, 11⟩,
  ⟨b!"est", .tz, -18000⟩,
  ⟨b!"fe", .month, 2⟩,
  ⟨b!"february", .month, 2⟩,
  ⟨b!"fjst", .dtz, -46800⟩,
  ⟨b!"fjt", .tz, -43200⟩,
  ⟨b!"fkst", .dtz, -10800⟩,
  ⟨b!"fkt", .tz, -7200⟩,
  ⟨b!"fri", .dow, 5⟩,
  ⟨b!"friday", .dow, 5⟩,
  ⟨b!"fst", .tz, 3600⟩,
  ⟨b!"fwt", .dtz, 7200⟩,
  ⟨b!"galt", .tz, -21600⟩,
  ⟨b!"gamt", .tz, -32400⟩,
  ⟨b!"gest", .dtz, 18000⟩,
  ⟨b!"get", .tz, 14400⟩,
  ⟨b!"gft", .tz, -10800⟩,
  ⟨b!"gilt", .tz, 43200⟩,
  ⟨b!"gmt", .tz, 0⟩,
  ⟨b!"gst", .tz, 36000⟩,
  ⟨b!"gyt", .tz, -14400⟩,
  ⟨b!"h", .units, 20⟩,
  ⟨b!"hdt", .dtz, -32400⟩,
  ⟨b!"hkt", .tz, 28800⟩,
  ⟨b!"hst", .tz, -36000⟩,
  ⟨b!"ict", .tz, 25200⟩,
  ⟨b!"idle", .tz, 43200⟩,
  ⟨b!"idlw", .tz, -43200⟩,
  ⟨b!"infinity", .reserv, 10⟩,
  ⟨b!"invalid", .reserv, 7⟩,
  ⟨b!"iot", .tz, 18000⟩,
  ⟨b!"irkst", .dtz, 32400⟩,
  ⟨b!"irkt", .tz, 28800⟩,
  ⟨b!"irt", .tz, 12600⟩,
  ⟨b!"isodow", .units, 37⟩,
  ⟨b!"ist", .tz, 7200⟩,
  ⟨b!"it", .tz, 12600⟩,
  ⟨b!"j", .units, 31⟩,
  ⟨b!"jan", .month, 1⟩,
  ⟨b!"january", .month, 1⟩,
  ⟨b!"javt", .tz, 25200⟩,
  ⟨b!"jayt", .tz, 32400⟩,
  ⟨b!"jd", .units, 31⟩,
  ⟨b!"jst", .tz, 32400⟩,
  ⟨b!"jt", .tz, 27000⟩,
  ⟨b!"jul", .month, 7⟩,
  ⟨b!"julian", .units, 31⟩,
  ⟨b!"july", .month, 7⟩,
  ⟨b!"jun", .month, 6⟩,
  ⟨b!"june", .month, 6⟩,
  ⟨b!"kdt", .dtz, 36000⟩,
  ⟨b!"kgst", .dtz, 21600⟩,
  ⟨b!"kgt", .tz, 18000⟩,
  ⟨b!"kost", .tz, 43200⟩,
  ⟨b!"krast", .dtz, 25200⟩,
  ⟨b!"krat", .tz, 28800⟩,
  ⟨b!"kst", .tz, 32400⟩,
  ⟨b!"lhdt", .dtz, 39600⟩,
  ⟨b!"lhst", .tz, 37800⟩,
  ⟨b!"ligt", .tz, 36000⟩,
  ⟨b!"lint", .tz, 50400⟩,
  ⟨b!"lkt", .tz, 21600⟩,
  ⟨b!"m", .units, 23⟩,
  ⟨b!"magst", .dtz, 43200⟩,
  ⟨b!"magt", .tz, 39600⟩,
  ⟨b!"mar", .month, 3⟩,
  ⟨b!"march", .month, 3⟩,
  ⟨b!"mart", .tz, -34200⟩,
  ⟨b!"mawt", .tz, 21600⟩,
  ⟨b!"may", .month, 5⟩,
  ⟨b!"mdt", .dtz, -21600⟩,
  ⟨b!"mest", .dtz, 7200⟩,
  ⟨b!"met", .tz, 3600⟩,
  ⟨b!"metdst", .dtz, 7200⟩,
  ⟨b!"mewt", .tz, 3600⟩,
  ⟨b!"mez", .tz, 3600⟩,
  ⟨b!"mht", .tz, 43200⟩,
  ⟨b!"mm", .units, 19⟩,
  ⟨b!"mmt", .tz, 23400⟩,
  ⟨b!"mon", .dow, 1⟩,
  ⟨b!"monday", .dow, 1⟩,
  ⟨b!"mpt", .tz, 36000⟩,
  ⟨b!"msd", .dtz, 14400⟩,
  ⟨b!"msk", .tz, 10800⟩,
  ⟨b!"mst", .tz, -25200⟩,
  ⟨b!"mt", .tz, 30600⟩,
  ⟨b!"mut", .tz, 14400⟩,
  ⟨b!"mvt", .tz, 18000⟩,
  ⟨b!"myt", .tz, 28800⟩,
  ⟨b!"nct", .tz, 39600⟩,
  ⟨b!"ndt", .dtz, -9000⟩,
  ⟨b!"nft", .tz, -12600⟩,
  ⟨b!"nor", .tz, 3600⟩,
  ⟨b!"nov", .month, 11⟩,
  ⟨b!"november", .month, 11⟩,
  ⟨b!"novst", .dtz, 25200⟩,
  ⟨b!"novt", .tz, 21600⟩,
  ⟨b!"now", .reserv, 12⟩,
  ⟨b!"npt", .tz, 20700⟩,
  ⟨b!"nst", .tz, -12600⟩,
  ⟨b!"nt", .tz, -39600⟩,
  ⟨b!"nut", .tz, -39600⟩,
  ⟨b!"nzdt", .dtz, 46800⟩,
  ⟨b!"nzst", .tz, 43200⟩,
  ⟨b!"nzt", .tz, 43200⟩,
  ⟨b!"oct", .month, 10⟩,
  ⟨b!"october", .month, 10⟩,
  ⟨b!"omsst", .dtz, 25200⟩,
  ⟨b!"omst", .tz, 21600⟩,
  ⟨b!"on", .ignoreDtf, 0⟩,
  ⟨b!"pdt", .dtz, -25200⟩,
  ⟨b!"pet", .tz, -18000⟩,
  ⟨b!"petst", .dtz, 46800⟩,
  ⟨b!"pett", .tz, 43200⟩,
  ⟨b!"pgt", .tz, 36000⟩,
  ⟨b!"phot", .tz, 46800⟩,
  ⟨b!"pht", .tz, 28800⟩,
  ⟨b!"pkt", .tz, 18000⟩,
  ⟨b!"pm", .ampm, 1⟩,
  ⟨b!"pmdt", .dtz, -7200⟩,
  ⟨b!"pont", .tz, 39600⟩,
  ⟨b!"pst", .tz, -28800⟩,
  ⟨b!"pwt", .tz, 32400⟩,
  ⟨b!"pyst", .dtz, -10800⟩,
  ⟨b!"pyt", .tz, -14400⟩,
  ⟨b!"ret", .dtz, 14400⟩,
  ⟨b!"s", .units, 18⟩,
  ⟨b!"sadt", .dtz, 37800⟩,
  ⟨b!"sast", .tz, 34200⟩,
  ⟨b!"sat", .dow, 6⟩,
  ⟨b!"saturday", .dow, 6⟩,
  ⟨b!"sct", .dtz, 14400⟩,
  ⟨b!"sep", .month, 9⟩,
  ⟨b!"sept", .month, 9⟩,
  ⟨b!"september", .month, 9⟩,
  ⟨b!"set", .tz, -3600⟩,
  ⟨b!"sst", .dtz, 7200⟩,
  ⟨b!"sun", .dow, 0⟩,
  ⟨b!"sunday", .dow, 0⟩,
  ⟨b!"swt", .tz, 3600⟩,
  ⟨b!"t", .isotime, 3⟩,
  ⟨b!"tft", .tz, 18000⟩,
  ⟨b!"that", .tz, -36000⟩,
  ⟨b!"thu", .dow, 4⟩,
  ⟨b!"thur", .dow, 4⟩,
  ⟨b!"thurs", .dow, 4⟩,
  ⟨b!"thursday", .dow, 4⟩,
  ⟨b!"tjt", .tz, 18000⟩,
  ⟨b!"tkt", .tz, -36000⟩,
  ⟨b!"tmt", .tz, 18000⟩,
  ⟨b!"today", .reserv, 14⟩,
  ⟨b!"tomorrow", .reserv, 15⟩,
  ⟨b!"tot", .tz, 46800⟩,
  ⟨b!"truk", .tz, 36000⟩,
  ⟨b!"tue", .dow, 2⟩,
  ⟨b!"tues", .dow, 2⟩,
  ⟨b!"tuesday", .dow, 2⟩,
  ⟨b!"tvt", .tz, 43200⟩,
  ⟨b!"ulast", .dtz, 32400⟩,
  ⟨b!"ulat", .tz, 28800⟩,
  ⟨b!"undefined", .reserv, 7⟩,
  ⟨b!"ut", .tz, 0⟩,
  ⟨b!"utc", .tz, 0⟩,
  ⟨b!"uyst", .dtz, -7200⟩,
  ⟨b!"uyt", .tz, -10800⟩,
  ⟨b!"uzst", .dtz, 21600⟩,
  ⟨b!"uzt", .tz, 18000⟩,
  ⟨b!"vet", .tz, -14400⟩,
  ⟨b!"vlast", .dtz, 39600⟩,
  ⟨b!"vlat", .tz, 36000⟩,
  ⟨b!"vut", .tz, 39600⟩,
  ⟨b!"wadt", .dtz, 28800⟩,
  ⟨b!"wakt", .tz, 43200⟩,
  ⟨b!"wast", .tz, 25200⟩,
  ⟨b!"wat", .tz, -3600⟩,
  ⟨b!"wdt", .dtz, 32400⟩,
  ⟨b!"wed", .dow, 3⟩,
  ⟨b!"wednesday", .dow, 3⟩,
  ⟨b!"weds", .dow, 3⟩,
  ⟨b!"west", .dtz, 3600⟩,
  ⟨b!"wet", .tz, 0⟩,
  ⟨b!"wetdst", .dtz, 3600⟩,
  ⟨b!"wft", .tz, 43200⟩,
  ⟨b!"wgst", .dtz, -7200⟩,
  ⟨b!"wgt", .tz, -10800⟩,
  ⟨b!"wst", .tz, 28800⟩,
  ⟨b!"y", .units, 25⟩,
  ⟨b!"yakst", .dtz, 36000⟩,
  ⟨b!"yakt", .tz, 32400⟩,
  ⟨b!"yapt", .tz, 36000⟩,
  ⟨b!"ydt", .dtz, -28800⟩,
  ⟨b!"yekst", .dtz, 21600⟩,
  ⟨b!"yekt", .tz, 18000⟩,
  ⟨b!"yesterday", .reserv, 13⟩,
  ⟨b!"yst", .tz, -32400⟩,
  ⟨b!"z", .tz, 0⟩,
  ⟨b!"zp4", .tz, -14400⟩,
  ⟨b!"zp5", .tz, -18000⟩,
  ⟨b!"zp6", .tz, -21600⟩,
  ⟨b!"zulu", .tz, 0⟩]

/-- src/token.rs:538-603 `DELTA_TOKEN_TABLE`. -/
def deltaTable : List DateToken := [
  ⟨b!"@", .ignoreDtf, 0⟩,
  ⟨b!"ago", .ago, 0⟩,
  ⟨b!"c", .units, 27⟩,
  ⟨b!"cent", .units, 27⟩,
  ⟨b!"centuries", .units, 27⟩,
  ⟨b!"century", .units, 27⟩,
  ⟨b!"d", .units, 21⟩,
  ⟨b!"day", .units, 21⟩,
  ⟨b!"days", .units, 21⟩,
  ⟨b!"dec", .units, 26⟩,
  ⟨b!"decade", .units, 26⟩,
  ⟨b!"decades", .units, 26⟩,
  ⟨b!"decs", .units, 26⟩,
  ⟨b!"h", .units, 20⟩,
  ⟨b!"hour", .units, 20⟩,
  ⟨b!"hours", .units, 20⟩,
  ⟨b!"hr", .units, 20⟩,
  ⟨b!"hrs", .units, 20⟩,
  ⟨b!"invalid", .reserv, 7⟩,
  ⟨b!"m", .units, 19⟩,
  ⟨b!"microsecon", .units, 30⟩,
  ⟨b!"mil", .units, 28⟩,
  ⟨b!"millennia", .units, 28⟩,
  ⟨b!"millennium", .units, 28⟩,
  ⟨b!"millisecon", .units, 29⟩,
  ⟨b!"mils", .units, 28⟩,
  ⟨b!"min", .units, 19⟩,
  ⟨b!"mins", .units, 19⟩,
  ⟨b!"minute", .units, 19⟩,
  ⟨b!"minutes", .units, 19⟩,
  ⟨b!"mon", .units, 23⟩,
  ⟨b!"mons", .units, 23⟩,
  ⟨b!"month", .units, 23⟩,
  ⟨b!"months", .units, 23⟩,
  ⟨b!"ms", .units, 29⟩,
  ⟨b!"msec", .units, 29⟩,
  ⟨b!"msecond", .units, 29⟩,
  ⟨b!"mseconds", .units, 29⟩,
  ⟨b!"msecs", .units, 29⟩,
  ⟨b!"qtr", .units, 24⟩,
  ⟨b!"quarter", .units, 24⟩,
  ⟨b!"s", .units, 18⟩,
  ⟨b!"sec", .units, 18⟩,
  ⟨b!"second", .units, 18⟩,
  ⟨b!"seconds", .units, 18⟩,
  ⟨b!"secs", .units, 18⟩,
  ⟨b!"timezone", .units, 4⟩,
  ⟨b!"timezone_h", .units, 34⟩,
  ⟨b!"timezone_m", .units, 35⟩,
  ⟨b!"undefined", .reserv, 7⟩,
  ⟨b!"us", .units, 30⟩,
  ⟨b!"usec", .units, 30⟩,
  ⟨b!"usecond", .units, 30⟩,
  ⟨b!"useconds", .units, 30⟩,
  ⟨b!"usecs", .units, 30⟩,
  ⟨b!"w", .units, 22⟩,
  ⟨b!"week", .units, 22⟩,
  ⟨b!"weeks", .units, 22⟩,
  ⟨b!"y", .units, 25⟩,
  ⟨b!"year", .units, 25⟩,
  ⟨b!"years", .units, 25⟩,
  ⟨b!"yr", .units, 25⟩,
  ⟨b!"yrs", .units, 25⟩]

/-- `Ord` on byte slices: lexicographic. -/
def cmpBytes : Bytes → Bytes → Ordering
  | [], [] => .eq
  | [], _ :: _ => .lt
  | _ :: _, [] => .gt
  | a :: as, b :: bs => if a < b then .lt else if b < a then .gt else cmpBytes as bs

/-- `[T]::binary_search_by_key` of the standard library: `some i` for `Ok(i)`, `none` for `Err`.
`left` and `right` delimit the part still to search; `fuel` bounds the iterations. An index outside
the table would panic. -/
def binarySearch (table : List DateToken) (key : Bytes) : Nat → Nat → Nat → Res (Option Nat)
  | 0, _, _ => .ok none
  | fuel + 1, left, right =>
    if left < right then
      let mid := left + (right - left) / 2
      match table[mid]? with
      | none => .panic
      | some t =>
        match cmpBytes t.token key with
        | .lt => binarySearch table key fuel (mid + 1) right
        | .gt => binarySearch table key fuel left mid
        | .eq => .ok (some mid)
    else .ok none

/-- The first `MAX_TOKEN_LEN` bytes of a word. -/
def cutKey (key : Bytes) : Bytes :=
  if key.length > MAX_TOKEN_LEN then key.take MAX_TOKEN_LEN else key

/-- src/token.rs:605-618 `date_token_binary_search`. -/
def tokenSearch (key : Bytes) (table : List DateToken) : Res (Option DateToken) := do
  match ← binarySearch table (cutKey key) table.length 0 table.length with
  | none => .ok none
  | some i =>
    match table[i]? with
    | none => .panic
    | some t => .ok (some t)

/-- src/token.rs:620-623 `search_date_token`. -/
def searchDate (key : Bytes) : Res (Option DateToken) := tokenSearch key dateTable

/-- src/token.rs:625-628 `search_delta_token`. -/
def searchDelta (key : Bytes) : Res (Option DateToken) := tokenSearch key deltaTable

/-- src/parse.rs:616 and 2651: the two thread-local caches, one entry per field position. -/
structure Caches where
  date : List (Option DateToken)
  delta : List (Option DateToken)
  deriving DecidableEq, Repr

/-- src/parse.rs:616 and 2651, the caches of a new thread. -/
def Caches.new : Caches :=
  ⟨List.replicate MAX_DATE_FIELDS none, List.replicate MAX_DATE_FIELDS none⟩

/-- src/parse.rs:631-644 and 2663-2676: the cached keyword if it is the (cut) word, otherwise a search
of the table. -/
def cacheFind (search : Bytes → Res (Option DateToken)) (tp : Option DateToken) (key : Bytes) :
    Res (Option DateToken) :=
  match tp with
  | none => search key
  | some t => if key ≠ t.token then search key else .ok (some t)

/-- src/parse.rs:631-653 and 2663-2685: one cached lookup. The cache entry of the field position is
used if its keyword is the (cut) word; otherwise the table is searched; a keyword that is found is
stored. Returns the keyword found and the new cache. An index outside the cache panics. -/
def cachedSearch (search : Bytes → Res (Option DateToken)) (cache : List (Option DateToken))
    (field : Nat) (word : Bytes) : Res (Option DateToken × List (Option DateToken)) := do
  match cache[field]? with
  | none => .panic
  | some tp =>
    match ← cacheFind search tp (cutKey word) with
    | none => .ok (none, cache)
    | some t => .ok (some t, cache.set field (some t))

/-- src/parse.rs:646-652 and 2678-2684: the result for a found or unknown keyword. -/
def tokenResult : Option DateToken → TokenType × Int
  | none => (.unknownField, 0)
  | some t => (t.ty, t.value)

/-- src/parse.rs:630-653 `decode_special`. -/
def decodeSpecial (c : Caches) (field : Nat) (word : Bytes) : Res ((TokenType × Int) × Caches) := do
  let (t, d) ← cachedSearch searchDate c.date field word
  .ok (tokenResult t, { c with date := d })

/-- src/parse.rs:2662-2685 `decode_units`. -/
def decodeUnits (c : Caches) (field : Nat) (word : Bytes) : Res ((TokenType × Int) × Caches) := do
  let (t, d) ← cachedSearch searchDelta c.delta field word
  .ok (tokenResult t, { c with delta := d })

end Pg
