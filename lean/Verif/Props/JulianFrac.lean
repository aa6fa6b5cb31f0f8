import Verif.Lemmas.JulianFracRun
import Verif.Props.Labels

/-!
# Property C76: the fraction of a Julian day number

A Julian day number may have a fraction of up to seven digits; it is the time of day. `c` is the state of the thread's
keyword caches, `u` the uninitialised type of a lone sign.
-/

namespace Props
open Pg Spec

/-- **C76, timestamps (partial).** A Julian day number with a fraction is the instant that fraction of a day after the
midnight that starts the day. A mark ` BC` changes nothing. Missing: the result may be one microsecond too early, see
`C76_violated`; `C76_exact` says when it is not. -/
theorem C76_timestamp_partial (p : Profile) (u : TokenField) (c : Caches) (hc : c.Ok) (order : DateOrder) (J : JulianFrac)
    (hJ : J.Ok) (bc : Bool) :
    ∃ exact us, DayFraction J.frac exact ∧ (us = exact ∨ us = exact - 1) ∧ 0 ≤ us ∧ us < dayMicros ∧
      if TsRange (((value J.day.digits : Int) - 2451545) * dayMicros + us) then
        Timestamp.tryFromStr p u c (J.bytes ++ bcMark bc) (-1) order =
          .ok ⟨((value J.day.digits : Int) - 2451545) * dayMicros + us⟩
      else (Timestamp.tryFromStr p u c (J.bytes ++ bcMark bc) (-1) order).IsErr := by
  obtain ⟨hD, hf⟩ := hJ
  have nf := DigitsOf.ne hf (by omega)
  obtain ⟨h0, h1, h2⟩ := julianMicros_near hf.1 hf.2.2
  have hb := julianMicros_day hf.1 hf.2.2
  refine ⟨fracTen J.frac * 8640, julianMicros J.frac, (fracTen_exact hf.2.2).2 rfl, by omega, h0, hb.2, ?_⟩
  exact ite_of (timestamp_julianFrac (bc := bc) hD hf.1 nf (by have := hf.2.2; omega) hc)
    ⟨fun h => ⟨hf.2.2, h⟩, fun h => h.2⟩

/-- **C76, exact fractions.** A fraction that is a multiple of 1/128 gives the exact time of day, in timestamps and in
times. -/
theorem C76_exact (p : Profile) (u : TokenField) (c : Caches) (hc : c.Ok) (order : DateOrder) (J : JulianFrac)
    (hJ : J.Ok) (bc : Bool) (hm : value J.frac * 128 % 10 ^ J.frac.length = 0) :
    ∃ us, DayFraction J.frac us ∧
      (if TsRange (((value J.day.digits : Int) - 2451545) * dayMicros + us) then
        Timestamp.tryFromStr p u c (J.bytes ++ bcMark bc) (-1) order =
          .ok ⟨((value J.day.digits : Int) - 2451545) * dayMicros + us⟩
      else (Timestamp.tryFromStr p u c (J.bytes ++ bcMark bc) (-1) order).IsErr) ∧
      if value J.day.digits ≤ 2147483647 then Time.tryFromStr p u c J.bytes (-1) order = .ok ⟨us⟩
      else (Time.tryFromStr p u c J.bytes (-1) order).IsErr := by
  obtain ⟨hD, hf⟩ := hJ
  have nf := DigitsOf.ne hf (by omega)
  have he := julianMicros_exact hf.1 hf.2.2 hm
  refine ⟨julianMicros J.frac, (fracTen_exact hf.2.2).2 he, ?_, ?_⟩
  · exact ite_of (timestamp_julianFrac (bc := bc) hD hf.1 nf (by have := hf.2.2; omega) hc)
      ⟨fun h => ⟨hf.2.2, h⟩, fun h => h.2⟩
  · exact ite_of (time_julianFrac hD hf.1 nf (by have := hf.2.2; omega) hc) ⟨fun h => ⟨hf.2.2, h⟩, fun h => h.2⟩

/-- **C76, dates.** For a date the fraction changes nothing. -/
theorem C76_date (p : Profile) (u : TokenField) (c : Caches) (hc : c.Ok) (order : DateOrder) (J : JulianFrac)
    (hJ : J.Ok) (bc : Bool) :
    if DateRange ((value J.day.digits : Int) - 2451545) then
      Date.tryFromStr p u c (J.bytes ++ bcMark bc) order = .ok ⟨(value J.day.digits : Int) - 2451545⟩
    else (Date.tryFromStr p u c (J.bytes ++ bcMark bc) order).IsErr := by
  obtain ⟨hD, hf⟩ := hJ
  have nf := DigitsOf.ne hf (by omega)
  exact ite_of (date_julianFrac (bc := bc) hD hf.1 nf (by have := hf.2.2; omega) hc) ⟨fun h => ⟨hf.2.2, h⟩, fun h => h.2⟩

/-- **C76, times (partial).** As a time of day, a Julian day number with a fraction is the fraction of a day. Missing: as
for timestamps. -/
theorem C76_time_partial (p : Profile) (u : TokenField) (c : Caches) (hc : c.Ok) (order : DateOrder) (J : JulianFrac)
    (hJ : J.Ok) :
    ∃ exact us, DayFraction J.frac exact ∧ (us = exact ∨ us = exact - 1) ∧ 0 ≤ us ∧ us < dayMicros ∧
      if value J.day.digits ≤ 2147483647 then Time.tryFromStr p u c J.bytes (-1) order = .ok ⟨us⟩
      else (Time.tryFromStr p u c J.bytes (-1) order).IsErr := by
  obtain ⟨hD, hf⟩ := hJ
  have nf := DigitsOf.ne hf (by omega)
  obtain ⟨h0, h1, h2⟩ := julianMicros_near hf.1 hf.2.2
  have hb := julianMicros_day hf.1 hf.2.2
  refine ⟨fracTen J.frac * 8640, julianMicros J.frac, (fracTen_exact hf.2.2).2 rfl, by omega, h0, hb.2, ?_⟩
  exact ite_of (time_julianFrac hD hf.1 nf (by have := hf.2.2; omega) hc) ⟨fun h => ⟨hf.2.2, h⟩, fun h => h.2⟩

/-- **C76, long fractions.** More than seven digits are an error. -/
theorem C76_long (p : Profile) (u : TokenField) (c : Caches) (hc : c.Ok) (order : DateOrder) (J : JulianFrac)
    (hJ : J.day.Ok) (hf : DigitsOf 8 40 J.frac) (bc : Bool) :
    (Timestamp.tryFromStr p u c (J.bytes ++ bcMark bc) (-1) order).IsErr ∧
    (Date.tryFromStr p u c (J.bytes ++ bcMark bc) order).IsErr ∧
    (Time.tryFromStr p u c J.bytes (-1) order).IsErr := by
  have nf := DigitsOf.ne hf (by omega)
  have h8 := hf.2.1
  have h1 := timestamp_julianFrac (p := p) (order := order) (u := u) (bc := bc) hJ hf.1 nf hf.2.2 hc
  have h2 := date_julianFrac (p := p) (order := order) (u := u) (bc := bc) hJ hf.1 nf hf.2.2 hc
  have h3 := time_julianFrac (p := p) (order := order) (u := u) hJ hf.1 nf hf.2.2 hc
  rw [if_neg (fun h => by have := h.1; omega)] at h1 h2 h3
  exact ⟨h1, h2, h3⟩

/-- **C76, clock times.** The fraction is the time of day: a clock time after it is an error. -/
theorem C76_clock (p : Profile) (u : TokenField) (c : Caches) (hc : c.Ok) (order : DateOrder) (J : JulianFrac)
    (hJ : J.Ok) (T : ClockText) (hT : T.Ok) (hco : T.colons = true) (bc : Bool) :
    (Timestamp.tryFromStr p u c (J.bytes ++ 32 :: T.bytes ++ bcMark bc) (-1) order).IsErr ∧
    (Date.tryFromStr p u c (J.bytes ++ 32 :: T.bytes ++ bcMark bc) order).IsErr :=
  julianFrac_clock hJ.1 hJ.2.1 (DigitsOf.ne hJ.2 (by omega)) (by have := hJ.2.2.2; omega) hc hT hco

/-- The fraction .7 is 16:48:00, but the code reads 16:47:59.999999. -/
theorem C76_violated : ¬ ∀ (J : JulianFrac) (us : Int), J.Ok → DayFraction J.frac us →
    TsRange (((value J.day.digits : Int) - 2451545) * dayMicros + us) →
    Timestamp.tryFromStr .release .date Caches.new J.bytes (-1) .ymd =
      .ok ⟨((value J.day.digits : Int) - 2451545) * dayMicros + us⟩ := by
  intro h
  have := h ⟨⟨b!"J", [], b!"2451545"⟩, b!"7"⟩ 60480000000
    ⟨⟨⟨b!"j", by decide, by unfold SameButCase; decide⟩, Or.inl rfl, by decide⟩, by decide⟩ (by unfold DayFraction; decide)
    (by unfold TsRange; decide +kernel)
  revert this
  decide +kernel

example : (⟨⟨b!"J", [], b!"2451545"⟩, b!"25"⟩ : JulianFrac).Ok ∧ DayFraction b!"25" 21600000000 ∧
    value b!"25" * 128 % 10 ^ 2 = 0 ∧
    Timestamp.tryFromStr .debug .date Caches.new b!"J2451545.25 BC" (-1) .mdy = .ok ⟨instant ⟨2000, 1, 1⟩ ⟨6, 0, 0, 0⟩⟩ ∧
    Time.tryFromStr .debug .date Caches.new b!"J2451545.25" (-1) .mdy = .ok ⟨21600000000⟩ ∧
    Date.tryFromStr .debug .date Caches.new b!"J2451545.25" .mdy = .ok ⟨0⟩ :=
  ⟨⟨⟨⟨b!"j", by decide, by unfold SameButCase; decide⟩, Or.inl rfl, by decide⟩, by decide⟩,
    by unfold DayFraction; decide, by decide, by decide +kernel, by decide +kernel, by decide +kernel⟩
example : Timestamp.tryFromStr .debug .date Caches.new b!"J2451545.7" (-1) .mdy =
      .ok ⟨instant ⟨2000, 1, 1⟩ ⟨16, 47, 59, 999999⟩⟩ ∧
    Timestamp.tryFromStr .debug .date Caches.new b!"julian 2451545.0000001" (-1) .mdy =
      .ok ⟨instant ⟨2000, 1, 1⟩ ⟨0, 0, 0, 8640⟩⟩ ∧
    Timestamp.tryFromStr .debug .date Caches.new b!"J2451545.25 04:05" (-1) .mdy = .err .invalid ∧
    Timestamp.tryFromStr .debug .date Caches.new b!"J2451545.12345678" (-1) .mdy = .err .overflow ∧
    DigitsOf 8 40 b!"12345678" := by decide +kernel

end Props
