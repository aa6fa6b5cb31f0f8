import Verif.Model.Types
import Verif.Spec.Clock
import Verif.Lemmas.DayNumber

namespace Pg
open Spec

theorem tsRange_iff (t : Int) : TsRange t ↔ MIN_TIMESTAMP ≤ t ∧ t < END_TIMESTAMP := by
  have h1 : instant firstDay ⟨0, 0, 0, 0⟩ = MIN_TIMESTAMP := by decide
  have h2 : instant lastTsDay.next ⟨0, 0, 0, 0⟩ = END_TIMESTAMP := by decide
  unfold TsRange
  rw [h1, h2]

theorem dateRange_iff (n : Int) : DateRange n ↔ -2451545 ≤ n ∧ n < 2145031949 := by
  have h1 : dayNumber firstDay = -2451545 := by decide
  have h2 : dayNumber lastDay = 2145031948 := by decide
  unfold DateRange
  rw [h1, h2]; omega

theorem isValidTimestamp_iff (t : Int) : isValidTimestamp t = true ↔ TsRange t := by
  rw [tsRange_iff]; simp [isValidTimestamp]

theorem isValidDate_iff (n : Int) : Date.isValidDate n = true ↔ DateRange n := by
  rw [dateRange_iff]; simp [Date.isValidDate]

theorem jdn_eq (c : YMD) : jdn c.y c.m c.d = dayNumber c + 2451545 := rfl

/-- The clock reading of a microsecond count. -/
def clockOf (t : Int) : Clock :=
  ⟨t % 86400000000 / 3600000000, t % 3600000000 / 60000000, t % 60000000 / 1000000, t % 1000000⟩

theorem clockOf_real (t : Int) : (clockOf t).Real := by
  unfold clockOf Clock.Real; simp only; omega

theorem clockOf_micros (t : Int) : (clockOf t).micros = t % 86400000000 := by
  unfold clockOf Clock.micros; simp only; omega

/-- A `PgTime` holding a day and a clock reading, all other fields as in `PgTime::new`. -/
def tmOf (c : YMD) (t : Clock) : PgTime :=
  { PgTime.new with year := c.y, mon := c.m, mday := c.d, hour := t.h, min := t.mi, sec := t.s }

theorem date2time_eq (p : Profile) (t : Int) (h0 : 0 ≤ t) (h1 : t < 86400000000) :
    date2time p t = .ok ((clockOf t).h, (clockOf t).mi, (clockOf t).s, (clockOf t).us) := by
  unfold date2time
  simp (disch := omega) only [tdiv_nn, chk64_ok, wrap32_of_in, Res.bind_ok, Res.pure_eq]
  unfold clockOf
  simp only [Res.ok.injEq, Prod.mk.injEq]
  omega

theorem timestampModulo_day (p : Profile) (dt : Int) (h0 : -9223372036854775808 ≤ dt)
    (h1 : dt ≤ 9223372036854775807) :
    timestampModulo p dt 86400000000 = .ok (Int.tmod dt 86400000000, Int.tdiv dt 86400000000) := by
  unfold timestampModulo
  have e1 := tdiv_or dt 86400000000
  have e2 := tmod_or dt 86400000000
  have c1 : chk64 p (tdiv dt 86400000000 * 86400000000) =
      .ok (tdiv dt 86400000000 * 86400000000) := by
    apply chk64_ok; omega
  have c2 : chk64 p (dt - tdiv dt 86400000000 * 86400000000) =
      .ok (dt - tdiv dt 86400000000 * 86400000000) := by
    apply chk64_ok; omega
  simp only [c1, c2, Res.bind_ok, Res.pure_eq]
  split <;> simp only [Res.ok.injEq, Prod.mk.injEq] <;> refine ⟨?_, trivial⟩ <;> omega

theorem dayNormalize_eq (p : Profile) (dt : Int) (h0 : -9223372036854775808 ≤ dt)
    (h1 : dt ≤ 9223372036854775807) :
    dayNormalize p (Int.tmod dt 86400000000) (Int.tdiv dt 86400000000) =
      .ok (dt % 86400000000, dt / 86400000000) := by
  have e1 := tdiv_or dt 86400000000
  have e2 := tmod_or dt 86400000000
  unfold dayNormalize
  split
  · rw [chk64_ok (by omega), chk64_ok (by omega)]
    simp only [Res.bind_ok, Res.pure_eq, Res.ok.injEq, Prod.mk.injEq]
    omega
  · simp only [Res.ok.injEq, Prod.mk.injEq]
    omega

/-- `timestamp2time` computes the calendar day and the clock reading. -/
theorem timestamp2time_spec (p : Profile) (dt : Int) (h0 : -211813488000000000 ≤ dt)
    (h1 : dt ≤ 9223372036854775807) :
    ∃ c : YMD, c.Real ∧ dayNumber c = dt / 86400000000 ∧
      timestamp2time p dt = .ok (tmOf c (clockOf dt), (clockOf dt).us) := by
  obtain ⟨y, m, d, he, hj, hr⟩ := julian2date_spec p (dt / 86400000000 + 2451545)
    (by omega) (by omega)
  refine ⟨⟨y, m, d⟩, hr, by unfold jdn at hj; omega, ?_⟩
  unfold timestamp2time
  rw [timestampModulo_day p dt (by omega) (by omega)]
  simp only [Res.bind_ok]
  rw [dayNormalize_eq p dt (by omega) (by omega)]
  simp only [Res.bind_ok]
  rw [chk64_ok (by omega)]
  simp only [Res.bind_ok]
  rw [if_neg (by omega), wrap32_of_in (by omega), he]
  simp only [Res.bind_ok]
  rw [date2time_eq p _ (by omega) (by omega)]
  have : clockOf (dt % 86400000000) = clockOf dt := by
    unfold clockOf; simp only [Clock.mk.injEq]; omega
  rw [this]
  rfl

theorem isValidJulian_iff (y m : Int) : isValidJulian y m = true ↔
    (-4713 < y ∨ (y = -4713 ∧ 11 ≤ m)) ∧ (y < 5874898 ∨ (y = 5874898 ∧ m < 6)) := by
  simp [isValidJulian]

theorem time2t_eq (p : Profile) (h mi s us : Int) (hh : -1000 ≤ h ∧ h ≤ 1000)
    (hm : -1000 ≤ mi ∧ mi ≤ 1000) (hs : -1000 ≤ s ∧ s ≤ 1000)
    (hu : -1000000000 ≤ us ∧ us ≤ 1000000000) :
    time2t p h mi s us = .ok ((⟨h, mi, s, us⟩ : Clock).micros) := by
  unfold time2t Clock.micros
  simp (disch := omega) only [chk32_ok, chk64_ok, Res.bind_ok]

theorem instant_bounds {y m d : Int} (hm : 1 ≤ m ∧ m ≤ 12) (hd : 1 ≤ d ∧ d ≤ 31)
    (hv : isValidJulian y m = true) : -23 ≤ jdn y m d ∧ jdn y m d ≤ 2147483647 := by
  rw [isValidJulian_iff] at hv
  rw [jdn_closed _ _ _ hm.1 hm.2]
  split <;> omega

/-- `to_timestamp` recombines a day and a clock reading (24:00 and second 60 allowed), and
fails exactly when the instant is outside the timestamp range. -/
theorem toTimestamp_eq (p : Profile) (tm : PgTime) (us : Int)
    (hm : 1 ≤ tm.mon ∧ tm.mon ≤ 12) (hd : 1 ≤ tm.mday ∧ tm.mday ≤ 31)
    (hv : isValidJulian tm.year tm.mon = true)
    (hh : 0 ≤ tm.hour ∧ tm.hour ≤ 99)
    (hmi : 0 ≤ tm.min ∧ tm.min ≤ 99) (hs : 0 ≤ tm.sec ∧ tm.sec ≤ 99)
    (hu : 0 ≤ us ∧ us ≤ 1000000000) :
    (TsRange (instant ⟨tm.year, tm.mon, tm.mday⟩ ⟨tm.hour, tm.min, tm.sec, us⟩) →
      tm.toTimestamp p us = .ok (instant ⟨tm.year, tm.mon, tm.mday⟩ ⟨tm.hour, tm.min, tm.sec, us⟩)) ∧
    (¬ TsRange (instant ⟨tm.year, tm.mon, tm.mday⟩ ⟨tm.hour, tm.min, tm.sec, us⟩) →
      (tm.toTimestamp p us).IsErr) := by
  obtain ⟨sec, min, hour, mday, mon, year, wday, yday, isdst⟩ := tm
  simp only at hm hd hv hh hmi hs hu ⊢
  have hb := instant_bounds hm hd hv
  have hj : date2julian p year mon mday = .ok (jdn year mon mday) := by
    rw [isValidJulian_iff] at hv
    exact date2julian_eq p _ _ _ (by omega) (by omega) (by omega) (by omega) (by omega) (by omega) (by omega)
  have hj0 : date2julian p 2000 1 1 = .ok 2451545 := by
    rw [date2julian_eq p 2000 1 1 (by omega) (by omega) (by omega) (by omega) (by omega) (by omega) (by omega)]; rfl
  have ht : time2t p hour min sec us = .ok ((⟨hour, min, sec, us⟩ : Clock).micros) :=
    time2t_eq p _ _ _ _ (by omega) (by omega) (by omega) (by omega)
  have hn : jdn year mon mday = dayNumber ⟨year, mon, mday⟩ + 2451545 := rfl
  have hmic : 0 ≤ (⟨hour, min, sec, us⟩ : Clock).micros ∧
      (⟨hour, min, sec, us⟩ : Clock).micros ≤ 400000000000 := by
    unfold Clock.micros; simp only; omega
  unfold PgTime.toTimestamp instant dayMicros
  simp only [hv, not_true_eq_false, if_false, hj, hj0, ht, Res.bind_ok]
  rw [chk32_ok (by omega)]
  simp only [Res.bind_ok]
  rw [hn] at *
  generalize dayNumber ⟨year, mon, mday⟩ = n at *
  generalize (⟨hour, min, sec, us⟩ : Clock).micros = k at *
  rw [show n + 2451545 - 2451545 = n by omega, tsRange_iff]
  by_cases c1 : -9223372036854775808 ≤ n * 86400000000 ∧ n * 86400000000 ≤ 9223372036854775807
  · rw [checked64_some c1]
    simp only
    by_cases c2 : -9223372036854775808 ≤ n * 86400000000 + k ∧
        n * 86400000000 + k ≤ 9223372036854775807
    · rw [checked64_some c2]
      simp only
      constructor
      · intro hr; rw [if_pos ((isValidTimestamp_iff _).2 ((tsRange_iff _).2 hr))]
      · intro hr; rw [if_neg (fun h => hr ((tsRange_iff _).1 ((isValidTimestamp_iff _).1 h)))]
        exact ⟨_, rfl⟩
    · rw [checked64_none c2]
      exact ⟨fun hr => absurd hr (by omega), fun _ => ⟨_, rfl⟩⟩
  · rw [checked64_none c1]
    exact ⟨fun hr => absurd hr (by omega), fun _ => ⟨_, rfl⟩⟩

theorem real_bounds {c : YMD} (h : c.Real) : 1 ≤ c.m ∧ c.m ≤ 12 ∧ 1 ≤ c.d ∧ c.d ≤ 31 := by
  obtain ⟨h1, h2, h3, h4⟩ := h
  have := monthDays_bounds c.y c.m
  omega

/-- A day whose number is in the date range satisfies the coarse Julian check. -/
theorem isValidJulian_of_range {c : YMD} (h : c.Real) (h0 : -2451545 ≤ dayNumber c)
    (h1 : dayNumber c < 2145031949) : isValidJulian c.y c.m = true := by
  have e := jdn_eq c
  have a := year_of_jdn_nonneg (y := c.y) (m := c.m) (d := c.d) h (by omega)
  have b := year_of_jdn_lt (y := c.y) (m := c.m) (d := c.d) h (by omega)
  rw [isValidJulian_iff]; omega

/-- A day failing the coarse Julian check is outside the timestamp range. -/
theorem not_tsRange_of_not_julian {c : YMD} {t : Clock} (h : c.Real) (ht : 0 ≤ t.micros ∧
    t.micros ≤ 86400000000) (hv : ¬ isValidJulian c.y c.m = true) : ¬ TsRange (instant c t) := by
  intro hr
  rw [tsRange_iff] at hr
  unfold instant dayMicros at hr
  have h0 : -2451545 - 1 ≤ dayNumber c := by omega
  have h1 : dayNumber c < 2145031949 := by omega
  apply hv
  have e := jdn_eq c
  have b := year_of_jdn_lt (y := c.y) (m := c.m) (d := c.d) h (by omega)
  have hb := real_bounds h
  have md := h.2.2.2
  rw [isValidJulian_iff]
  rw [jdn_closed _ _ _ hb.1 hb.2.1] at e
  split at e <;> omega

/-- The instant of the fields of `dt` is `dt`. -/
theorem instant_fields {c : YMD} {dt : Int} (h : dayNumber c = dt / 86400000000) :
    instant c (clockOf dt) = dt := by
  unfold instant dayMicros
  rw [clockOf_micros, h]; omega

end Pg
