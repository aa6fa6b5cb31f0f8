import Verif.Lemmas.Unambiguous
import Verif.Props.Format
import Verif.Props.IntervalText
import Verif.Props.StampInput

/-!
# C100: within a style, different values have different texts

What `format` writes for two values in the same style (and order) is the same only if the values are the same. Nothing is assumed
about the buffers, whose old contents may differ.
-/

namespace Props
open Pg Spec

/-- **C100, dates.** Two dates, finite or infinite, with the same text in the same style and order are equal. -/
theorem C100_date (p : Profile) (junk junk' : Bytes) (hj : junk.length = 128) (hj' : junk'.length = 128) (d d' : Date)
    (h : DateRange d.v ∨ d.v = i32Max ∨ d.v = i32Min) (h' : DateRange d'.v ∨ d'.v = i32Max ∨ d'.v = i32Min)
    (st : DateStyle) (o : DateOrder) (t : Bytes) (e : d.format p junk st o = .ok t) (e' : d'.format p junk' st o = .ok t) : d = d' := by
  have inf := fun j => C40_output p j st o
  have noInf := fun j hj (x : Date) (hx : DateRange x.v) => C40_finite p j hj st o x hx ⟨0⟩ (by decide)
  obtain ⟨v⟩ := d
  obtain ⟨v'⟩ := d'
  dsimp only at h h'
  rcases h with h | h | h <;> rcases h' with h' | h' | h'
  · exact C33_injective p junk junk' hj hj' _ _ h h' st o t e e'
  · subst h'; rw [(inf junk').1] at e'; rw [← e'] at e; exact absurd e (noInf junk hj _ h).1
  · subst h'; rw [(inf junk').2.1] at e'; rw [← e'] at e; exact absurd e (noInf junk hj _ h).2.1
  · subst h; rw [(inf junk).1] at e; rw [← e] at e'; exact absurd e' (noInf junk' hj' _ h').1
  · rw [h, h']
  · subst h; subst h'; rw [(inf junk).1] at e; rw [(inf junk').2.1] at e'; rw [← e] at e'; exact absurd e' (by decide)
  · subst h; rw [(inf junk).2.1] at e; rw [← e] at e'; exact absurd e' (noInf junk' hj' _ h').2.1
  · subst h; subst h'; rw [(inf junk).2.1] at e; rw [(inf junk').1] at e'; rw [← e] at e'; exact absurd e' (by decide)
  · rw [h, h']

/-- The two dates really have texts; the older one is in another century but otherwise alike. -/
example : ∃ t t', (⟨0⟩ : Date).format .debug (List.replicate 128 7) .sql .dmy = .ok t ∧
    (⟨-36524⟩ : Date).format .release (List.replicate 128 9) .sql .dmy = .ok t' ∧ t ≠ t' :=
  ⟨b!"01/01/2000", b!"01/01/1900", by decide +kernel, by decide +kernel, by decide⟩

/-- **C100, times.** Two times of day up to 24:00 with the same text, whatever the styles, are equal. -/
theorem C100_time (p : Profile) (junk junk' : Bytes) (hj : junk.length = 128) (hj' : junk'.length = 128) (x x' : Time)
    (h : 0 ≤ x.v ∧ x.v ≤ dayMicros) (h' : 0 ≤ x'.v ∧ x'.v ≤ dayMicros) (st st' : DateStyle) (t : Bytes)
    (e : x.format p junk st = .ok t) (e' : x'.format p junk' st' = .ok t) : x = x' := by
  have clock : ∀ {v : Int}, 0 ≤ v ∧ v ≤ dayMicros → ∃ c : Clock, (c.Real ∨ c = ⟨24, 0, 0, 0⟩) ∧ v = c.micros := by
    intro v hv
    by_cases h24 : v = dayMicros
    · exact ⟨⟨24, 0, 0, 0⟩, Or.inr rfl, by rw [h24]; rfl⟩
    · refine ⟨⟨v / 3600000000, v / 60000000 % 60, v / 1000000 % 60, v % 1000000⟩, Or.inl ?_, ?_⟩
      · unfold Clock.Real; unfold dayMicros at hv h24; dsimp only; omega
      · simp only [Clock.micros]; omega
  obtain ⟨v⟩ := x
  obtain ⟨v'⟩ := x'
  obtain ⟨c, hc, rfl⟩ := clock h
  obtain ⟨c', hc', rfl⟩ := clock h'
  rw [C51_time p junk hj c hc st] at e
  rw [C51_time p junk' hj' c' hc' st'] at e'
  injection e with e
  injection e' with e'
  have := e.trans e'.symm
  rw [← List.append_nil (clockText c), ← List.append_nil (clockText c')] at this
  rw [(clock_split hc hc' Nondigit.nil Nondigit.nil (by simp) (by simp) this).1]

example : (⟨dayMicros⟩ : Time).format .debug (List.replicate 128 7) .iso = .ok b!"24:00:00" ∧
    (⟨0⟩ : Time).format .debug (List.replicate 128 7) .german = .ok b!"00:00:00" := by decide +kernel

/-- **C100, timestamps.** Two timestamps, finite or infinite, with the same text in the same style and order are equal. -/
theorem C100_timestamp (p : Profile) (junk junk' : Bytes) (hj : junk.length = 128) (hj' : junk'.length = 128) (x x' : Timestamp)
    (h : TsRange x.v ∨ x.v = i64Max ∨ x.v = i64Min) (h' : TsRange x'.v ∨ x'.v = i64Max ∨ x'.v = i64Min)
    (st : DateStyle) (o : DateOrder) (t : Bytes) (e : x.format p junk st o = .ok t) (e' : x'.format p junk' st o = .ok t) : x = x' := by
  have inf := fun j => C40_output p j st o
  have noInf := fun j hj (x : Timestamp) (hx : TsRange x.v) => C40_finite p j hj st o ⟨0⟩ (by decide) x hx
  rcases h with h | h | h <;> rcases h' with h' | h' | h'
  · obtain ⟨c, k, hc, hk, rfl⟩ := C36_every x h
    obtain ⟨c', k', hc', hk', rfl⟩ := C36_every x' h'
    rw [C51_timestamp p junk hj c k hc hk h st o] at e
    rw [C51_timestamp p junk' hj' c' k' hc' hk' h' st o] at e'
    injection e with e
    injection e' with e'
    obtain ⟨rfl, rfl⟩ := timestampText_inj st o hc hc' hk hk' (e.trans e'.symm)
    rfl
  all_goals obtain ⟨v⟩ := x
  all_goals obtain ⟨v'⟩ := x'
  all_goals dsimp only at h h'
  · subst h'; rw [(inf junk').2.2.1] at e'; rw [← e'] at e; exact absurd e (noInf junk hj _ h).2.2.1
  · subst h'; rw [(inf junk').2.2.2] at e'; rw [← e'] at e; exact absurd e (noInf junk hj _ h).2.2.2
  · subst h; rw [(inf junk).2.2.1] at e; rw [← e] at e'; exact absurd e' (noInf junk' hj' _ h').2.2.1
  · rw [h, h']
  · subst h; subst h'; rw [(inf junk).2.2.1] at e; rw [(inf junk').2.2.2] at e'; rw [← e] at e'; exact absurd e' (by decide)
  · subst h; rw [(inf junk).2.2.2] at e; rw [← e] at e'; exact absurd e' (noInf junk' hj' _ h').2.2.2
  · subst h; subst h'; rw [(inf junk).2.2.2] at e; rw [(inf junk').2.2.1] at e'; rw [← e] at e'; exact absurd e' (by decide)
  · rw [h, h']

/-- The same day and clock time a year apart around the change of era. -/
example : (⟨-63082281600000000⟩ : Timestamp).format .debug (List.replicate 128 7) .postgres .mdy = .ok b!"Mon Jan 01 00:00:00 0001" ∧
    (⟨-63113904000000000⟩ : Timestamp).format .debug (List.replicate 128 7) .postgres .mdy = .ok b!"Sat Jan 01 00:00:00 0001 BC" := by decide +kernel

/-- The intervals whose text C52 gives: the hours fit 32 bits and, outside ISO 8601, neither days nor hours are `-2^31`. -/
def Printed (style : IntervalStyle) (a : Interval) : Prop :=
  a.WF ∧ HoursFit a.time ∧ (style = .iso8601 ∨ (a.day ≠ -2147483648 ∧ -2147483648 * 3600000000 < a.time))

/-- **C100, intervals.** Two intervals with the same text in the same style have the same months, days and microseconds. -/
theorem C100_interval (p : Profile) (junk junk' : Bytes) (hj : junk.length = 128) (hj' : junk'.length = 128) (style : IntervalStyle)
    (a a' : Interval) (h : Printed style a) (h' : Printed style a') (t : Bytes) (e : a.format p junk style = .ok t)
    (e' : a'.format p junk' style = .ok t) : a = a' := by
  have text : ∀ (j : Bytes) (b : Interval), j.length = 128 → Printed style b → b.format p j style = .ok (intervalText style b) := by
    rintro j b hj ⟨h1, h2, rfl | ⟨h3, h4⟩⟩
    · exact C52_iso p b h1 h2 j hj
    · exact C52_text p b h1 h2 h3 h4 style j hj
  rw [text junk a hj h] at e
  rw [text junk' a' hj' h'] at e'
  injection e with e
  injection e' with e'
  have e := e.trans e'.symm
  have : a.month = a'.month ∧ a.day = a'.day ∧ a.time = a'.time := by
    cases style
    · exact pgIntervalText_inj e
    · exact verboseIntervalText_inj e
    · exact sqlIntervalText_inj e
    · exact isoIntervalText_inj e
  obtain ⟨m, d, t⟩ := a
  obtain ⟨m', d', t'⟩ := a'
  obtain ⟨rfl, rfl, rfl⟩ := this
  rfl

/-- Close calls: a month and a minute, an interval and its negation. -/
example : Printed .verbose ⟨1, 0, 0⟩ ∧ Printed .verbose ⟨0, 0, 60000000⟩ ∧ Printed .verbose ⟨-1, 0, 0⟩ ∧ Printed .sqlStandard ⟨1, -1, 0⟩ := by
  refine ⟨?_, ?_, ?_, ?_⟩ <;> (unfold Printed; decide +kernel)
example : (⟨1, 0, 0⟩ : Interval).format .debug (List.replicate 128 7) .verbose = .ok b!"@ 1 mon" ∧
    (⟨0, 0, 60000000⟩ : Interval).format .debug (List.replicate 128 7) .verbose = .ok b!"@ 1 min" ∧
    (⟨-1, 0, 0⟩ : Interval).format .debug (List.replicate 128 7) .verbose = .ok b!"@ 1 mons ago" ∧
    (⟨1, -1, 0⟩ : Interval).format .debug (List.replicate 128 7) .sqlStandard = .ok b!"+0-1 -1 +0:00:00" := by decide +kernel

end Props
