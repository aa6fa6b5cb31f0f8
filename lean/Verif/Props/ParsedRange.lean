import Verif.Props.Times
import Verif.Props.DateInput
import Verif.Lemmas.ParseRun

/-!
# Property C45: what is read is valid
-/

namespace Pg

theorem St.bind_inv {σ α β : Type} {m : St σ α} {f : α → St σ β} {s : σ} {b : β}
    (h : ((m >>= f) s).1 = .ok b) : ∃ a s', m s = (.ok a, s') ∧ (f a s').1 = .ok b := by
  rw [St.bind_run] at h
  cases hm : m s with
  | mk r s' =>
    rw [hm] at h
    cases r with
    | ok a => exact ⟨a, s', rfl, h⟩
    | err e => cases h
    | panic => cases h

theorem runLocal_inv {σ C α : Type} {init d : σ} {m : St (σ × C) α} {c c' : C} {a : α}
    (h : runLocal init m c = (.ok (a, d), c')) : m (init, c) = (.ok a, (d, c')) := by
  unfold runLocal at h
  split at h
  · rename_i h'; cases h; exact h'
  · cases h
  · cases h

end Pg

namespace Props
open Pg Spec

theorem date_inv {p : Profile} {u : TokenField} {cs : Caches} {s : Bytes} {order : DateOrder} {d : Date}
    (h : Date.tryFromStr p u cs s order = .ok d) : ∃ dec, Date.ofDec p dec = .ok d := by
  unfold Date.tryFromStr Date.tryFromStrW at h
  obtain ⟨_, _, -, h⟩ := St.bind_inv h
  obtain ⟨⟨_, dec⟩, _, -, h⟩ := St.bind_inv h
  exact ⟨dec, h⟩

/-- **C45 (dates).** Whatever the text, a date that is read is a calendar date in range or an infinity. -/
theorem C45_date (p : Profile) (u : TokenField) (cs : Caches) (s : Bytes) (order : DateOrder) (d : Date)
    (h : Date.tryFromStr p u cs s order = .ok d) : DateRange d.v ∨ d.v = i32Max ∨ d.v = i32Min := by
  obtain ⟨dec, h⟩ := date_inv h
  unfold Date.ofDec at h
  split at h
  · split at h
    · cases h
    · obtain ⟨j, -, h⟩ := Res.bind_eq_ok.1 h
      obtain ⟨v, -, h⟩ := Res.bind_eq_ok.1 h
      split at h
      · rename_i hv
        cases h
        left
        exact (isValidDate_iff _).1 hv
      · cases h
  · cases h; exact Or.inr (Or.inl rfl)
  · cases h; exact Or.inr (Or.inr rfl)
  · cases h

/-- **C45 (timestamps, partial).** Whatever the text, a timestamp that is read is in range, or an infinity,
or, if it was rounded, the first instant after the range. Missing: the last case, which does happen. -/
theorem C45_timestamp_partial (p : Profile) (u : TokenField) (cs : Caches) (s : Bytes) (typmod : Int)
    (order : DateOrder) (t : Timestamp) (h : Timestamp.tryFromStr p u cs s typmod order = .ok t) :
    TsRange t.v ∨ t.v = i64Max ∨ t.v = i64Min ∨ (t.v = 9223371331200000000 ∧ 0 ≤ typmod ∧ typmod < 6) := by
  unfold Timestamp.tryFromStr Timestamp.tryFromStrW at h
  obtain ⟨_, _, -, h⟩ := St.bind_inv h
  obtain ⟨⟨_, dec⟩, _, -, h⟩ := St.bind_inv h
  obtain ⟨t0, _, h0, h⟩ := St.bind_inv h
  have h0 : Timestamp.ofDec p dec = .ok t0 := congrArg Prod.fst h0
  have h : t0.adjustByTypmod p typmod = .ok t := h
  have h1 : TsRange t0.v ∨ t0.v = i64Max ∨ t0.v = i64Min := by
    unfold Timestamp.ofDec at h0
    split at h0
    · obtain ⟨v, hv, h0⟩ := Res.bind_eq_ok.1 h0
      cases h0
      left
      unfold PgTime.toTimestamp at hv
      split at hv
      · cases hv
      · obtain ⟨_, -, hv⟩ := Res.bind_eq_ok.1 hv
        obtain ⟨_, -, hv⟩ := Res.bind_eq_ok.1 hv
        obtain ⟨_, -, hv⟩ := Res.bind_eq_ok.1 hv
        obtain ⟨_, -, hv⟩ := Res.bind_eq_ok.1 hv
        split at hv
        · cases hv
        · split at hv
          · cases hv
          · split at hv
            · rename_i hr; cases hv
              exact (isValidTimestamp_iff _).1 hr
            · cases hv
    · cases h0; exact Or.inr (Or.inl rfl)
    · cases h0; exact Or.inr (Or.inr rfl)
    · cases h0
  unfold Timestamp.adjustByTypmod at h
  split at h
  · rename_i hc
    rcases h1 with h1 | h1
    · split at h
      · cases h
      · obtain ⟨r, hr, h⟩ := Res.bind_eq_ok.1 h
        cases h
        have hb := (tsRange_iff _).1 h1
        obtain ⟨r', e, hn⟩ := roundTo_eq p (n := typmod.toNat) (v := t0.v) (by omega) (by omega)
        have : ((typmod.toNat : Nat) : Int) = typmod := by omega
        rw [this, hr] at e
        cases e
        have hlt : typmod.toNat < 6 := by omega
        have hu : precisionUnit typmod.toNat = 1000000 ∨ precisionUnit typmod.toNat = 100000 ∨
          precisionUnit typmod.toNat = 10000 ∨ precisionUnit typmod.toNat = 1000 ∨
          precisionUnit typmod.toNat = 100 ∨ precisionUnit typmod.toNat = 10 ∨ precisionUnit typmod.toNat = 1 := by
            have := precisionUnit_cases (n := typmod.toNat) (by omega); omega
        have : r = 9223371331200000000 ∨ TsRange r := by
          rw [tsRange_iff]
          unfold Nearest at hn
          generalize precisionUnit typmod.toNat = k at *
          rcases hu with rfl | rfl | rfl | rfl | rfl | rfl | rfl <;> omega
        rcases this with h | h
        · exact Or.inr (Or.inr (Or.inr ⟨h, by omega, by omega⟩))
        · exact Or.inl h
    · exfalso
      apply hc.1
      unfold Timestamp.isInfinite
      rcases h1 with h1 | h1 <;> rw [h1] <;> decide
  · cases h; tauto

/-- **C45 (times, partial).** Whatever the text, a time that is read lies between 00:00 and 24:00:01.
Missing: at most 24:00, which is false (see below). -/
theorem C45_time_partial (p : Profile) (u : TokenField) (cs : Caches) (s : Bytes) (typmod : Int)
    (order : DateOrder) (t : Time) (h : Time.tryFromStr p u cs s typmod order = .ok t) :
    0 ≤ t.v ∧ t.v ≤ 86401000000 := by
  unfold Time.tryFromStr Time.tryFromStrW at h
  obtain ⟨l, _, -, h⟩ := St.bind_inv h
  obtain ⟨⟨_, dec⟩, c', hd, h⟩ := St.bind_inv h
  obtain ⟨t0, _, h0, h⟩ := St.bind_inv h
  have h0 : Time.fromPgtime p dec.tm dec.fSec = .ok t0 := congrArg Prod.fst h0
  have h : t0.adjustByTypmod p typmod = .ok t := h
  have hbad : badTimeOnly dec = false := by
    have hd := runLocal_inv hd
    unfold decodeTimeOnly at hd
    have hd1 := congrArg Prod.fst hd
    have hd2 := congrArg Prod.snd hd
    obtain ⟨_, s1, e1, hd1⟩ := St.bind_inv hd1
    rw [St.bind_ok e1] at hd2
    obtain ⟨_, s2, e2, hd1⟩ := St.bind_inv hd1
    rw [St.bind_ok e2] at hd2
    obtain ⟨d, s3, e3, hd1⟩ := St.bind_inv hd1
    rw [St.bind_ok e3] at hd2
    cases e3
    by_cases hb : badTimeOnly s2.1 = true
    · rw [if_pos hb] at hd1; cases hd1
    · rw [if_neg hb] at hd2
      have : s2 = (dec, c') := hd2
      rw [this] at hb
      simpa using hb
  have hr : 0 ≤ dec.tm.hour ∧ 0 ≤ dec.tm.min ∧ dec.tm.min ≤ 59 ∧ 0 ≤ dec.tm.sec ∧ dec.tm.sec ≤ 60 ∧
      dec.tm.hour ≤ 24 ∧ 0 ≤ dec.fSec ∧ dec.fSec ≤ 1000000 ∧
      (dec.tm.hour = 24 → dec.tm.min ≤ 0 ∧ dec.tm.sec ≤ 0 ∧ dec.fSec ≤ 0) := by
    unfold badTimeOnly at hbad
    simp only [Bool.or_eq_false_iff, decide_eq_false_iff_not, Bool.and_eq_false_iff] at hbad
    obtain ⟨⟨⟨⟨⟨⟨⟨⟨b1, b2⟩, b3⟩, b4⟩, b5⟩, b6⟩, b7⟩, b8⟩, b9⟩ := hbad
    refine ⟨by omega, by omega, by omega, by omega, by omega, by omega, by omega, by omega, ?_⟩
    intro h24
    rcases b7 with b7 | ⟨⟨b, b'⟩, b''⟩
    · exact absurd h24 b7
    · omega
  obtain ⟨r1, r2, r3, r4, r5, r6, r7, r8, r9⟩ := hr
  have h24 : dec.tm.hour ≤ 23 ∨ (dec.tm.hour = 24 ∧ dec.tm.min ≤ 0 ∧ dec.tm.sec ≤ 0 ∧ dec.fSec ≤ 0) := by
    by_cases h : dec.tm.hour = 24
    · exact Or.inr ⟨h, r9 h⟩
    · exact Or.inl (by omega)
  have hb : 0 ≤ t0.v ∧ t0.v ≤ 86401000000 := by
    unfold Time.fromPgtime at h0
    rw [chk32_ok (by omega), Res.bind_ok, chk32_ok (by omega), Res.bind_ok, chk32_ok (by omega), Res.bind_ok,
      chk64_ok (by omega), Res.bind_ok, chk64_ok (by omega), Res.bind_ok, chk64_ok (by omega), Res.bind_ok] at h0
    cases h0
    simp only
    omega
  unfold Time.adjustByTypmod at h
  split at h
  · obtain ⟨r, hr, h⟩ := Res.bind_eq_ok.1 h
    cases h
    obtain ⟨r', e, hn⟩ := roundTo_eq p (n := typmod.toNat) (v := t0.v) (by omega) (by omega)
    have : ((typmod.toNat : Nat) : Int) = typmod := by omega
    rw [this, hr] at e
    cases e
    have hu := precisionUnit_cases (n := typmod.toNat) (by omega)
    unfold Nearest at hn
    simp only
    generalize precisionUnit typmod.toNat = k at *
    rcases hu with rfl | rfl | rfl | rfl | rfl | rfl | rfl <;> omega
  · cases h; exact hb

example : Date.tryFromStr .debug .string Caches.new b!"2024-02-29" .ymd = .ok ⟨8825⟩ ∧
    Timestamp.tryFromStr .debug .string Caches.new b!"2024-02-29 12:00" (-1) .ymd = .ok ⟨762523200000000⟩ ∧
    Time.tryFromStr .debug .string Caches.new b!"24:00" (-1) .ymd = .ok ⟨86400000000⟩ := by decide +kernel

/-- **C45 is violated (times):** a leap second before midnight is read as a time after 24:00. -/
theorem C45_time_violated (p : Profile) (u : TokenField) (cs : Caches) (hcs : cs.Ok) (order : DateOrder) :
    Time.tryFromStr p u cs b!"23:59:60.5" (-1) order = .ok ⟨86400500000⟩ ∧
    Time.tryFromStr p u cs b!"23:59:60.9999999" (-1) order = .ok ⟨86401000000⟩ := by
  have hs : scan u b!"23:59:60.5" = .ok [(.time, b!"23:59:60.5")] := by cases u <;> decide +kernel
  have hs' : scan u b!"23:59:60.9999999" = .ok [(.time, b!"23:59:60.9999999")] := by cases u <;> decide +kernel
  constructor
  · rw [time_run p u hcs (-1) order hs (r := .ok ()) (w := ())
      (d := { tm := { hour := 23, min := 59, sec := 60 }, fSec := 500000, fMask := DTK_TIME_M, tMask := DTK_TIME_M })
      (by cases p <;> cases order <;> decide +kernel)]
    cases p <;> decide +kernel
  · rw [time_run p u hcs (-1) order hs' (r := .ok ()) (w := ())
      (d := { tm := { hour := 23, min := 59, sec := 60 }, fSec := 1000000, fMask := DTK_TIME_M, tMask := DTK_TIME_M })
      (by cases p <;> cases order <;> decide +kernel)]
    cases p <;> decide +kernel

/-- **C45 is violated (timestamps):** the last instant, rounded to seconds, is read as an instant outside
the range. -/
theorem C45_timestamp_violated (p : Profile) (u : TokenField) (cs : Caches) (hcs : cs.Ok) (order : DateOrder) :
    Timestamp.tryFromStr p u cs b!"294276-12-31 23:59:59.5" 0 order = .ok ⟨9223371331200000000⟩ ∧
    ¬ TsRange 9223371331200000000 := by
  have hs : scan u b!"294276-12-31 23:59:59.5" = .ok [(.date, b!"294276-12-31"), (.time, b!"23:59:59.5")] := by
    cases u <;> decide +kernel
  refine ⟨?_, by decide⟩
  rw [timestamp_run p u hcs 0 order hs (r := .ok ()) (w := ())
    (d := { tm := { year := 294276, mon := 12, mday := 31, hour := 23, min := 59, sec := 59 }, fSec := 500000, fMask := 31758, tMask := DTK_TIME_M })
    (by cases p <;> cases order <;> decide +kernel)]
  cases p <;> decide +kernel

/-- A text that names no day at all, only a time of day, is read as the date of year 0, month 0, day 0. -/
theorem C45_unnamed_day (p : Profile) (u : TokenField) (cs : Caches) (hcs : cs.Ok) (order : DateOrder) :
    Date.tryFromStr p u cs b!"12:30" order = .ok ⟨-730517⟩ := by
  have hs : scan u b!"12:30" = .ok [(.time, b!"12:30")] := by cases u <;> decide +kernel
  rw [date_run p u hcs order hs (r := .ok ()) (w := ())
    (d := { tm := { hour := 12, min := 30 }, fMask := DTK_TIME_M, tMask := DTK_TIME_M })
    (by cases p <;> cases order <;> decide +kernel)]
  cases p <;> decide +kernel

/-- Day 123 of the year 11767000, which is out of range, is read by a release build as a day of the year
7779, and makes a debug build panic. -/
theorem C45_wrapped_year (u : TokenField) (cs : Caches) (hcs : cs.Ok) (order : DateOrder) :
    Date.tryFromStr .release u cs b!"11767000-123" order = .ok ⟨2110839⟩ ∧
    Date.tryFromStr .debug u cs b!"11767000-123" order = .panic := by
  have hs : scan u b!"11767000-123" = .ok [(.date, b!"11767000-123")] := by cases u <;> decide +kernel
  constructor
  · rw [date_run .release u hcs order hs (r := .ok ()) (w := ())
      (d := { tm := { year := 7779, mon := 4, mday := 13, yday := 123 }, fMask := 32782, tMask := 32782 })
      (by cases order <;> decide +kernel)]
    decide +kernel
  · rw [date_run .debug u hcs order hs (r := .panic) (w := ())
      (d := { tm := { year := 11767000, yday := 123 }, fMask := 32782, tMask := 32782 })
      (by cases order <;> decide +kernel)]
    rfl

end Props
