import Verif.Lemmas.Clocks
import Verif.Props.Special

/-!
# Property C83: a date and a timestamp are read alike

`c` is the state of the thread's keyword caches, `u` the uninitialised type of a lone sign. Without a type modifier.
-/

namespace Pg
open Spec

/-- The day number of the decoded fields, if there is one. -/
def Dec.day (p : Profile) (d : Dec) : Res Int :=
  if ¬ isValidJulian d.tm.year d.tm.mon then .err .invalid
  else do
    let j ← date2julian p d.tm.year d.tm.mon d.tm.mday
    chk32 p (j - POSTGRES_EPOCH_JDATE)

theorem dateOfDec_day {p : Profile} {d : Dec} (h : d.dType = .date) :
    Date.ofDec p d = (d.day p >>= fun n => if Date.isValidDate n then .ok ⟨n⟩ else .err .invalid) := by
  unfold Date.ofDec Dec.day
  rw [h]
  simp only
  split
  · rfl
  · cases date2julian p d.tm.year d.tm.mon d.tm.mday <;> rfl

theorem timestampOfDec_day {p : Profile} {d : Dec} (h : d.dType = .date) :
    Timestamp.ofDec p d = (d.day p >>= fun n => time2t p d.tm.hour d.tm.min d.tm.sec d.fSec >>= fun t =>
      match checked64 (n * USECS_PER_DAY) with
      | none => .err .overflow
      | some r =>
        match checked64 (r + t) with
        | none => .err .overflow
        | some r => if isValidTimestamp r then .ok ⟨r⟩ else .err .invalid) := by
  have hj0 : date2julian p 2000 1 1 = .ok 2451545 := by cases p <;> decide
  unfold Timestamp.ofDec Dec.day PgTime.toTimestamp
  rw [h]
  simp only
  split
  · rfl
  · rw [hj0]
    cases date2julian p d.tm.year d.tm.mon d.tm.mday with
    | err => rfl
    | panic => rfl
    | ok j =>
      simp only [Res.bind_ok]
      cases chk32 p (j - 2451545) with
      | err => rfl
      | panic => rfl
      | ok n =>
        simp only [Res.bind_ok]
        cases time2t p d.tm.hour d.tm.min d.tm.sec d.fSec with
        | err => rfl
        | panic => rfl
        | ok t =>
          simp only [Res.bind_ok]
          cases checked64 (n * USECS_PER_DAY) with
          | none => rfl
          | some r =>
            simp only
            cases checked64 (r + t) with
            | none => rfl
            | some r => simp only; split <;> rfl

/-- The last step for a timestamp. -/
theorem timestamp_sum (n t : Int) (h0 : 0 ≤ t) (h1 : t ≤ 10000000000000000) :
    (if TsRange (n * 86400000000 + t) then
      (match checked64 (n * USECS_PER_DAY) with
      | none => .err .overflow
      | some r =>
        match checked64 (r + t) with
        | none => .err .overflow
        | some r => if isValidTimestamp r then .ok (⟨r⟩ : Timestamp) else .err .invalid) = Res.ok ⟨n * 86400000000 + t⟩
    else Res.IsErr (match checked64 (n * USECS_PER_DAY) with
      | none => .err .overflow
      | some r =>
        match checked64 (r + t) with
        | none => .err .overflow
        | some r => if isValidTimestamp r then .ok (⟨r⟩ : Timestamp) else .err .invalid)) := by
  unfold checked64
  split
  · rename_i h
    have hr := (tsRange_iff _).1 h
    by_cases hd : In64 (n * USECS_PER_DAY)
    · rw [if_pos hd]
      dsimp only
      rw [if_pos (by unfold In64; omega)]
      dsimp only
      rw [if_pos ((isValidTimestamp_iff _).2 h)]
    · exfalso
      unfold In64 at hd
      omega
  · rename_i h
    split
    · exact ⟨_, rfl⟩
    · rename_i r hr
      split at hr
      · cases hr
        split
        · exact ⟨_, rfl⟩
        · rename_i x hx
          split at hx
          · cases hx
            rw [if_neg (by rw [isValidTimestamp_iff]; exact h)]
            exact ⟨_, rfl⟩
          · cases hx
      · cases hr


/-- The clock part in the debug build. -/
theorem time2t_debug {h m s f t : Int} (hh : 0 ≤ h) (hm : 0 ≤ m) (hs : 0 ≤ s ∧ s ≤ 2147483647) (hf : 0 ≤ f ∧ f ≤ 1000000)
    (e : time2t .debug h m s f = .ok t) : 0 ≤ t ∧ t ≤ 10000000000000000 := by
  have d32 : ∀ x y : Int, chk32 .debug x = .ok y → y = x ∧ In32 x := by
    intro x y h
    unfold chk32 at h
    split at h
    · cases h; exact ⟨rfl, by assumption⟩
    · cases h
  have d64 : ∀ x y : Int, chk64 .debug x = .ok y → y = x ∧ In64 x := by
    intro x y h
    unfold chk64 at h
    split at h
    · cases h; exact ⟨rfl, by assumption⟩
    · cases h
  unfold time2t at e
  obtain ⟨a, h1, e⟩ := Res.bind_eq_ok.1 e
  obtain ⟨b, h2, e⟩ := Res.bind_eq_ok.1 e
  obtain ⟨c, h3, e⟩ := Res.bind_eq_ok.1 e
  obtain ⟨d, h4, e⟩ := Res.bind_eq_ok.1 e
  obtain ⟨g, h5, e⟩ := Res.bind_eq_ok.1 e
  have h1 := d32 _ _ h1
  have h2 := d32 _ _ h2
  have h3 := d32 _ _ h3
  have h4 := d64 _ _ h4
  have h5 := d64 _ _ h5
  have h6 := d64 _ _ e
  unfold In32 at h1 h2 h3
  omega

theorem date_noScan {p : Profile} {u : TokenField} {c : Caches} (hc : c.Ok) (order : DateOrder) {s : Bytes} {r : Res Date}
    (h : scan u s = .panic ∧ r = .panic ∨ ∃ e, scan u s = .err e ∧ r = .err e) : Date.tryFromStr p u c s order = r := by
  rw [Date.tryFromStr, (same_date p u order s c hc).1, Date.tryFromStrW]
  rcases h with ⟨h, rfl⟩ | ⟨e, h, rfl⟩ <;> rw [h] <;> rfl

theorem timestamp_noScan {p : Profile} {u : TokenField} {c : Caches} (hc : c.Ok) (typmod : Int) (order : DateOrder) {s : Bytes}
    {r : Res Timestamp} (h : scan u s = .panic ∧ r = .panic ∨ ∃ e, scan u s = .err e ∧ r = .err e) :
    Timestamp.tryFromStr p u c s typmod order = r := by
  rw [Timestamp.tryFromStr, (same_timestamp p u typmod order s c hc).1, Timestamp.tryFromStrW]
  rcases h with ⟨h, rfl⟩ | ⟨e, h, rfl⟩ <;> rw [h] <;> rfl

end Pg

namespace Props
open Pg Spec

/-- **C83.** A text without the labels of hours, minutes and seconds is refused both as a date and as a timestamp, or is the same
infinity for both, or it names a day and a time after the start of that day: the date is the day, the timestamp that many microseconds
after its start, if in range. The time can be more than a day (`C83_late`), but not more than 99 hours, 99 minutes and 100 seconds. -/
theorem C83_agree (p : Profile) (u : TokenField) (c : Caches) (hc : c.Ok) (order : DateOrder) (s : Bytes) (hs : ¬ Says clockLabels s) :
    ((Date.tryFromStr p u c s order).IsErr ∧ (Timestamp.tryFromStr p u c s (-1) order).IsErr) ∨
    (Date.tryFromStr p u c s order = .panic ∧ Timestamp.tryFromStr p u c s (-1) order = .panic) ∨
    (Date.tryFromStr p u c s order = .ok ⟨i32Max⟩ ∧ Timestamp.tryFromStr p u c s (-1) order = .ok ⟨i64Max⟩) ∨
    (Date.tryFromStr p u c s order = .ok ⟨i32Min⟩ ∧ Timestamp.tryFromStr p u c s (-1) order = .ok ⟨i64Min⟩) ∨
    ∃ d k : Int, 0 ≤ k ∧ k ≤ 362440000000 ∧
      (if DateRange d then Date.tryFromStr p u c s order = .ok ⟨d⟩ else (Date.tryFromStr p u c s order).IsErr) ∧
      (if TsRange (d * 86400000000 + k) then Timestamp.tryFromStr p u c s (-1) order = .ok ⟨d * 86400000000 + k⟩
        else (Timestamp.tryFromStr p u c s (-1) order).IsErr) := by
  cases hsc : scan u s with
  | panic => exact Or.inr (Or.inl ⟨date_noScan hc _ (Or.inl ⟨hsc, rfl⟩), timestamp_noScan hc _ _ (Or.inl ⟨hsc, rfl⟩)⟩)
  | err e => exact Or.inl ⟨⟨e, date_noScan hc _ (Or.inr ⟨e, hsc, rfl⟩)⟩, ⟨e, timestamp_noScan hc _ _ (Or.inr ⟨e, hsc, rfl⟩)⟩⟩
  | ok l =>
    rcases hr : decodeDateTime p plainLook order l ({}, ()) with ⟨r, d, w⟩
    have hd := date_run p u hc order hsc hr
    have ht := timestamp_run p u hc (-1) order hsc hr
    cases r with
    | panic => exact Or.inr (Or.inl ⟨hd, ht⟩)
    | err e => exact Or.inl ⟨⟨e, hd⟩, ⟨e, ht⟩⟩
    | ok a =>
      have hin := decode_in (N := 99) (by omega) (by omega) (scan_good hsc fun _ => hs) hr
      simp only [Res.bind_ok, timestamp_noTypmod] at hd ht
      have ht : Timestamp.tryFromStr p u c s (-1) order = Timestamp.ofDec p d := by
        rw [ht]; cases Timestamp.ofDec p d <;> rfl
      rw [hd, ht]
      clear hd ht
      by_cases h1 : d.dType = .date
      · rw [dateOfDec_day h1, timestampOfDec_day h1]
        cases Dec.day p d with
        | panic => exact Or.inr (Or.inl ⟨rfl, rfl⟩)
        | err e => exact Or.inl ⟨⟨e, rfl⟩, ⟨e, rfl⟩⟩
        | ok n =>
          obtain ⟨i1, i2, i3, i4⟩ := hin
          rw [time2t_eq p _ _ _ _ (by omega) (by omega) (by omega) (by omega)]
          simp only [Res.bind_ok]
          have hb : 0 ≤ (⟨d.tm.hour, d.tm.min, d.tm.sec, d.fSec⟩ : Clock).micros ∧
              (⟨d.tm.hour, d.tm.min, d.tm.sec, d.fSec⟩ : Clock).micros ≤ 362440000000 := by
            unfold Clock.micros; dsimp only; omega
          generalize (⟨d.tm.hour, d.tm.min, d.tm.sec, d.fSec⟩ : Clock).micros = k at *
          refine Or.inr (Or.inr (Or.inr (Or.inr ⟨n, k, hb.1, hb.2, ?_, timestamp_sum n k hb.1 (by omega)⟩)))
          by_cases hv : DateRange n
          · rw [if_pos hv, if_pos ((isValidDate_iff n).2 hv)]
          · rw [if_neg hv, if_neg (by rw [isValidDate_iff]; exact hv)]
            exact ⟨_, rfl⟩
      · unfold Date.ofDec Timestamp.ofDec
        split
        · contradiction
        · exact Or.inr (Or.inr (Or.inl ⟨rfl, rfl⟩))
        · exact Or.inr (Or.inr (Or.inr (Or.inl ⟨rfl, rfl⟩)))
        · exact Or.inl ⟨⟨_, rfl⟩, ⟨_, rfl⟩⟩

/-- **C83, every text.** Read as a date and as a timestamp, a text is the same infinity or finite for both. -/
theorem C83_infinite (p : Profile) (u : TokenField) (c : Caches) (hc : c.Ok) (typmod : Int) (order : DateOrder) (s : Bytes) (d : Date)
    (t : Timestamp) (hd : Date.tryFromStr p u c s order = .ok d) (ht : Timestamp.tryFromStr p u c s typmod order = .ok t) :
    (d.v = i32Max ↔ t.v = i64Max) ∧ (d.v = i32Min ↔ t.v = i64Min) := by
  obtain ⟨l, x, h1, h2, h3⟩ := date_decoded hc hd
  obtain ⟨l', x', y, g1, g2, g3, g4⟩ := timestamp_decoded hc ht
  rw [h1] at g1
  cases g1
  rw [h2] at g2
  cases g2
  have a := date_kind h3
  have b := timestamp_kind g3 g4
  rcases a with ⟨a1, a2, a3⟩ | ⟨a1, a2⟩ | ⟨a1, a2⟩ <;> rcases b with ⟨b1, b2, b3⟩ | ⟨b1, b2⟩ | ⟨b1, b2⟩ <;>
    first
      | (rw [a1] at b1; cases b1; done)
      | exact ⟨⟨fun h => absurd h a2, fun h => absurd h b2⟩, ⟨fun h => absurd h a3, fun h => absurd h b3⟩⟩
      | (rw [a2, b2]; decide)

/-- **C83, every text, debug build.** A timestamp is not before the day that the same text names as a date. -/
theorem C83_debug (u : TokenField) (c : Caches) (hc : c.Ok) (order : DateOrder) (s : Bytes) (d : Date)
    (t : Timestamp) (hd : Date.tryFromStr .debug u c s order = .ok d) (ht : Timestamp.tryFromStr .debug u c s (-1) order = .ok t)
    (hf : d.v ≠ i32Max ∧ d.v ≠ i32Min) : d.v * 86400000000 ≤ t.v := by
  obtain ⟨l, x, h1, h2, h3⟩ := date_decoded hc hd
  obtain ⟨l', x', y, g1, g2, g3, g4⟩ := timestamp_decoded hc ht
  rw [h1] at g1
  cases g1
  rw [h2] at g2
  cases g2
  rw [timestamp_noTypmod] at g4
  cases g4
  have hin := decode_in (N := 2147483647) (by omega) (by omega) (scan_good h1 fun h => by omega) h2
  rcases date_kind h3 with ⟨a1, -⟩ | ⟨a1, a2⟩ | ⟨a1, a2⟩
  · rw [dateOfDec_day a1] at h3
    rw [timestampOfDec_day a1] at g3
    obtain ⟨n, h4, h3⟩ := Res.bind_eq_ok.1 h3
    obtain ⟨n', h5, g3⟩ := Res.bind_eq_ok.1 g3
    rw [h4] at h5
    cases h5
    obtain ⟨k, h6, g3⟩ := Res.bind_eq_ok.1 g3
    have hk := time2t_debug hin.h.1 hin.m.1 hin.s hin.f h6
    have key := timestamp_sum n k hk.1 hk.2
    rw [g3] at key
    split at h3
    · cases h3
      split at key
      · injection key with key
        rw [key]; dsimp only; omega
      · obtain ⟨_, key⟩ := key; cases key
    · cases h3
  · exact absurd a2 hf.1
  · exact absurd a2 hf.2

/-- **C83, the time after the start of the day.** It can be more than a day, and then a text that names no date in range can be a
timestamp. -/
theorem C83_late (p : Profile) (u : TokenField) (c : Caches) (hc : c.Ok) :
    Date.tryFromStr p u c b!"2000-01-01 990000" .ymd = .ok ⟨0⟩ ∧
    Timestamp.tryFromStr p u c b!"2000-01-01 990000" (-1) .ymd = .ok ⟨356400000000⟩ ∧
    (Date.tryFromStr p u c b!"4714-11-23 240000 BC" .ymd).IsErr ∧
    Timestamp.tryFromStr p u c b!"4714-11-23 240000 BC" (-1) .ymd = .ok ⟨-211813488000000000⟩ := by
  have s1 : scan u b!"2000-01-01 990000" = .ok [(.date, b!"2000-01-01"), (.number, b!"990000")] := by
    cases u <;> decide +kernel
  have s2 : scan u b!"4714-11-23 240000 BC" = .ok [(.date, b!"4714-11-23"), (.number, b!"240000"), (.string, b!"bc")] := by
    cases u <;> decide +kernel
  exact ⟨date_eval p u hc .ymd s1 (by cases p <;> decide +kernel), timestamp_eval p u hc (-1) .ymd s1 (by cases p <;> decide +kernel),
    ⟨.invalid, date_eval p u hc .ymd s2 (by cases p <;> decide +kernel)⟩,
    timestamp_eval p u hc (-1) .ymd s2 (by cases p <;> decide +kernel)⟩

/-- **C83, violated in the release build for labelled numbers.** The timestamp is before the day that the text names. -/
theorem C83_violated (u : TokenField) (c : Caches) (hc : c.Ok) (order : DateOrder) :
    Date.tryFromStr .release u c b!"2000-01-01 h 596524" order = .ok ⟨0⟩ ∧
    Timestamp.tryFromStr .release u c b!"2000-01-01 h 596524" (-1) order = .ok ⟨-2147480896000000⟩ := by
  have hs : scan u b!"2000-01-01 h 596524" =
      .ok [(.date, b!"2000-01-01"), (.string, b!"h"), (.number, b!"596524")] := by cases u <;> decide +kernel
  exact ⟨date_eval .release u hc order hs (by cases order <;> decide +kernel),
    timestamp_eval .release u hc (-1) order hs (by cases order <;> decide +kernel)⟩

/-! ## Cases -/

/-- Labels of dates, months by name and the letter before a time are allowed. -/
example : ¬ Says clockLabels b!"Jan 2, y2024 t 10:00 pm" ∧ ¬ Says clockLabels b!"j 2451545.25" := by
  refine ⟨fun h => absurd (says_at h) ?_, fun h => absurd (says_at h) ?_⟩ <;> unfold Letter Known SameButCase <;> decide +kernel

example (p : Profile) (u : TokenField) (c : Caches) (hc : c.Ok) (order : DateOrder) :
    Date.tryFromStr p u c b!"j 2451545.25" order = .ok ⟨0⟩ ∧
    Timestamp.tryFromStr p u c b!"j 2451545.25" (-1) order = .ok ⟨21600000000⟩ := by
  have hs : scan u b!"j 2451545.25" = .ok [(.string, b!"j"), (.number, b!"2451545.25")] := by cases u <;> decide +kernel
  exact ⟨date_eval p u hc order hs (by cases p <;> cases order <;> decide +kernel),
    timestamp_eval p u hc (-1) order hs (by cases p <;> cases order <;> decide +kernel)⟩

/-- A labelled time in the debug build. -/
example (u : TokenField) (c : Caches) (hc : c.Ok) (order : DateOrder) :
    Date.tryFromStr .debug u c b!"2000-01-01 h 500" order = .ok ⟨0⟩ ∧
    Timestamp.tryFromStr .debug u c b!"2000-01-01 h 500" (-1) order = .ok ⟨1800000000000⟩ := by
  have hs : scan u b!"2000-01-01 h 500" = .ok [(.date, b!"2000-01-01"), (.string, b!"h"), (.number, b!"500")] := by
    cases u <;> decide +kernel
  exact ⟨date_eval .debug u hc order hs (by cases order <;> decide +kernel),
    timestamp_eval .debug u hc (-1) order hs (by cases order <;> decide +kernel)⟩

end Props
