import Verif.Lemmas.CacheSim
import Verif.Spec.Keywords

/-! # C41, C42: keywords and their caches -/

namespace Props
open Pg Spec

/-! ## C41 -/

/-- The meaning found by a lookup. -/
def meaning : Res ((TokenType × Int) × Caches) → Option (TokenType × Int)
  | .ok r => some r.1
  | _ => none


/-- C41 for date keywords. Whatever table entries the caches hold, looking up a word at one of the 25
field positions gives a meaning iff the table has an entry for the first 10 bytes of the word, and then
the meaning is that of the entry; there is no panic. -/
theorem C41_date_keyword (c : Caches) (hc : c.Ok) (i : Nat) (hi : i < 25) (w : Bytes) :
    ∃ r c', decodeSpecial c i w = .ok (r, c') ∧
      (∀ e ∈ dateTable, e.token = w.take 10 → r = (e.ty, e.value)) ∧
      ((∀ e ∈ dateTable, e.token ≠ w.take 10) → r = (.unknownField, 0)) := by
  obtain ⟨c', h1, -⟩ := decodeSpecial_spec hc hi w
  refine ⟨_, c', h1, ?_, ?_⟩
  · intro e he hw
    rw [(lookupIn_some dateTable_sorted w e).mpr ⟨he, hw⟩]; rfl
  · intro hno
    cases hl : lookupIn dateTable w with
    | none => rfl
    | some e =>
      obtain ⟨h1, h2⟩ := (lookupIn_some dateTable_sorted w e).mp hl
      exact absurd h2 (hno e h1)

example : meaning (decodeSpecial Caches.new 3 b!"wednesday") = some (.dow, 3) := by decide +kernel
example : meaning (decodeSpecial Caches.new 3 b!"wednesda") = some (.unknownField, 0) := by
  decide +kernel

/-- C41 for interval units. -/
theorem C41_interval_unit (c : Caches) (hc : c.Ok) (i : Nat) (hi : i < 25) (w : Bytes) :
    ∃ r c', decodeUnits c i w = .ok (r, c') ∧
      (∀ e ∈ deltaTable, e.token = w.take 10 → r = (e.ty, e.value)) ∧
      ((∀ e ∈ deltaTable, e.token ≠ w.take 10) → r = (.unknownField, 0)) := by
  obtain ⟨c', h1, -⟩ := decodeUnits_spec hc hi w
  refine ⟨_, c', h1, ?_, ?_⟩
  · intro e he hw
    rw [(lookupIn_some deltaTable_sorted w e).mpr ⟨he, hw⟩]; rfl
  · intro hno
    cases hl : lookupIn deltaTable w with
    | none => rfl
    | some e =>
      obtain ⟨h1, h2⟩ := (lookupIn_some deltaTable_sorted w e).mp hl
      exact absurd h2 (hno e h1)

example : meaning (decodeUnits Caches.new 24 b!"milliseconds") = some (.units, 29) := by
  decide +kernel

/-- C41: no keyword has two meanings, in either table. -/
theorem C41_one_meaning (e e' : DateToken) (h : e.token = e'.token) :
    (e ∈ dateTable → e' ∈ dateTable → e = e') ∧ (e ∈ deltaTable → e' ∈ deltaTable → e = e') :=
  ⟨fun h1 h2 => dateTable_sorted.inj h1 h2 h, fun h1 h2 => deltaTable_sorted.inj h1 h2 h⟩

example : (⟨b!"mon", .dow, 1⟩ : DateToken) ∈ dateTable ∧ (⟨b!"mon", .units, 23⟩ : DateToken) ∈ deltaTable := by
  decide +kernel

/-- C41: the full month names name their months. -/
theorem C41_month_names (c : Caches) (hc : c.Ok) (i : Nat) (hi : i < 25) (w : Bytes) (m : Int)
    (hw : (w, m) ∈ monthWords) : meaning (decodeSpecial c i w) = some (.month, m) := by
  obtain ⟨c', h1, -⟩ := decodeSpecial_spec hc hi w
  rw [h1]
  have : ∀ x ∈ monthWords, tokenResult (lookupIn dateTable x.1) = (.month, x.2) := by decide +kernel
  exact congrArg some (this _ hw)

/-- C41: the full weekday names name their days. -/
theorem C41_weekday_names (c : Caches) (hc : c.Ok) (i : Nat) (hi : i < 25) (w : Bytes) (d : Int)
    (hw : (w, d) ∈ weekdayWords) : meaning (decodeSpecial c i w) = some (.dow, d) := by
  obtain ⟨c', h1, -⟩ := decodeSpecial_spec hc hi w
  rw [h1]
  have : ∀ x ∈ weekdayWords, tokenResult (lookupIn dateTable x.1) = (.dow, x.2) := by decide +kernel
  exact congrArg some (this _ hw)

/-- C41: the interval units in singular and plural name their units. -/
theorem C41_unit_names (c : Caches) (hc : c.Ok) (i : Nat) (hi : i < 25) (w : Bytes) (f : TokenField)
    (hw : (w, f) ∈ unitWords) : meaning (decodeUnits c i w) = some (.units, f.value) := by
  obtain ⟨c', h1, -⟩ := decodeUnits_spec hc hi w
  rw [h1]
  have : ∀ x ∈ unitWords, tokenResult (lookupIn deltaTable x.1) = (.units, x.2.value) := by
    decide +kernel
  exact congrArg some (this _ hw)

example : (b!"september", 9) ∈ monthWords ∧ (b!"saturday", 6) ∈ weekdayWords ∧
    (b!"millennia", .millennium) ∈ unitWords := by decide +kernel

/-- C41: of the twelve three-letter month abbreviations exactly "feb" is not a keyword (the table
has "fe" instead). -/
theorem C41_month_abbreviations (c : Caches) (hc : c.Ok) (i : Nat) (hi : i < 25) (w : Bytes) (m : Int)
    (hw : (w, m) ∈ monthWords) :
    meaning (decodeSpecial c i (w.take 3)) = some (if m = 2 then (.unknownField, 0) else (.month, m)) := by
  obtain ⟨c', h1, -⟩ := decodeSpecial_spec hc hi (w.take 3)
  rw [h1]
  have : ∀ x ∈ monthWords, tokenResult (lookupIn dateTable (x.1.take 3)) =
      if x.2 = 2 then (.unknownField, 0) else (.month, x.2) := by decide +kernel
  exact congrArg some (this _ hw)

/-! ## C42 -/

/-- One earlier call of a parsing function. -/
inductive ParseCall where
  | date (u : TokenField) (s : Bytes) (order : DateOrder)
  | time (u : TokenField) (s : Bytes) (typmod : Int) (order : DateOrder)
  | timestamp (u : TokenField) (s : Bytes) (typmod : Int) (order : DateOrder)
  | interval (u : TokenField) (s : Bytes) (typmod : Int) (style : IntervalStyle)

/-- The caches after one call. -/
def ParseCall.run (p : Profile) (c : Caches) : ParseCall → Caches
  | .date u s order => (Date.tryFromStrW p cachedLook u order s c).2
  | .time u s typmod order => (Time.tryFromStrW p cachedLook u typmod order s c).2
  | .timestamp u s typmod order => (Timestamp.tryFromStrW p cachedLook u typmod order s c).2
  | .interval u s typmod style => (Interval.tryFromStrW p cachedLook u typmod style s c).2

/-- The caches of a thread after a history of calls. -/
def cachesAfter (p : Profile) (history : List ParseCall) : Caches :=
  history.foldl (ParseCall.run p) Caches.new

theorem ParseCall.run_ok (p : Profile) {c : Caches} (hc : c.Ok) (k : ParseCall) : (k.run p c).Ok := by
  cases k with
  | date u s order => exact (same_date p u order s c hc).2
  | time u s t order => exact (same_time p u t order s c hc).2
  | timestamp u s t order => exact (same_timestamp p u t order s c hc).2
  | interval u s t style => exact (same_interval p u t style s c hc).2

theorem cachesAfter_ok (p : Profile) (history : List ParseCall) : (cachesAfter p history).Ok := by
  have : ∀ (l : List ParseCall) (c : Caches), c.Ok → (l.foldl (ParseCall.run p) c).Ok := by
    intro l
    induction l with
    | nil => intro c hc; exact hc
    | cons k l ih => intro c hc; exact ih _ (k.run_ok p hc)
  exact this history _ Caches.ok_new

/-- C42: after any two histories of earlier parsing calls, parsing a date, time, timestamp or interval
gives the same result. -/
theorem C42_history_invisible (p : Profile) (h h' : List ParseCall) (u : TokenField) (s : Bytes)
    (typmod : Int) (order : DateOrder) (style : IntervalStyle) :
    Date.tryFromStr p u (cachesAfter p h) s order = Date.tryFromStr p u (cachesAfter p h') s order ∧
    Time.tryFromStr p u (cachesAfter p h) s typmod order =
      Time.tryFromStr p u (cachesAfter p h') s typmod order ∧
    Timestamp.tryFromStr p u (cachesAfter p h) s typmod order =
      Timestamp.tryFromStr p u (cachesAfter p h') s typmod order ∧
    Interval.tryFromStr p u (cachesAfter p h) s typmod style =
      Interval.tryFromStr p u (cachesAfter p h') s typmod style := by
  have a := cachesAfter_ok p h
  have b := cachesAfter_ok p h'
  refine ⟨?_, ?_, ?_, ?_⟩
  · exact (same_date p u order s _ a).1.trans (same_date p u order s _ b).1.symm
  · exact (same_time p u typmod order s _ a).1.trans (same_time p u typmod order s _ b).1.symm
  · exact (same_timestamp p u typmod order s _ a).1.trans (same_timestamp p u typmod order s _ b).1.symm
  · exact (same_interval p u typmod style s _ a).1.trans (same_interval p u typmod style s _ b).1.symm

-- the caches do change: after one call the first entry is the word "may"
example : (cachesAfter .debug [.date .number b!"may 5 2020" .ymd]).date.head? =
    some (some ⟨b!"may", .month, 5⟩) := by decide +kernel
example : Date.tryFromStr .debug .number (cachesAfter .debug [.date .number b!"may 5 2020" .ymd])
    b!"june 5 2020" .ymd = .ok ⟨7461⟩ := by decide +kernel

end Props
