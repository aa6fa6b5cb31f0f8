import Verif.Lemmas.F64Parts
import Verif.Props.IntervalParts
import Verif.Props.DateParts
import Verif.Props.Times

/-!
# C53, C54, C55: the remaining `date_part` fields

Larger units of intervals, clock fields of times and timestamps, infinite timestamps, and seconds since the
epoch.
-/

namespace Spec

/-- `k` whole units of `n` each are contained in `total`, counted away from zero. -/
def WholeUnits (n total k : Int) : Prop :=
  SameSign k total ∧ n * k.natAbs ≤ total.natAbs ∧ (total.natAbs : Int) < n * (k.natAbs + 1)

instance (n total k : Int) : Decidable (WholeUnits n total k) := inferInstanceAs (Decidable (_ ∧ _ ∧ _))

end Spec

namespace Props
open Pg Spec

theorem ivPart_eq (p : Profile) (a : Interval) (h : a.WF) (hf : HoursFit a.time) (u : DateUnit) :
    a.datePart p .unit u = Interval.fieldPart p (ivTm a) (Int.tmod a.time 1000000) u := by
  unfold Interval.datePart
  simp only
  rw [toPgtime_eq p h.2.2, if_pos ((hoursFit_iff _).1 hf)]
  rfl

/-- **C53.** Year, decade, century and millennium of an interval are the number of whole years, decades,
centuries and millennia in its months; the quarter counts the whole quarters of the months left over by the
years, starting at one. The units that make sense only for a day of the calendar are errors. -/
theorem C53_larger_units (p : Profile) (a : Interval) (h : a.WF) (hf : HoursFit a.time) :
    (∃ k : Int, a.datePart p .unit .year = .ok (.fin k) ∧ WholeUnits 12 a.month k) ∧
    (∃ k : Int, a.datePart p .unit .decade = .ok (.fin k) ∧ WholeUnits 120 a.month k) ∧
    (∃ k : Int, a.datePart p .unit .century = .ok (.fin k) ∧ WholeUnits 1200 a.month k) ∧
    (∃ k : Int, a.datePart p .unit .millennium = .ok (.fin k) ∧ WholeUnits 12000 a.month k) ∧
    (∃ y k : Int, WholeUnits 12 a.month y ∧ a.datePart p .unit .quarter = .ok (.fin (k + 1 : Int)) ∧
      WholeUnits 3 (a.month - 12 * y) k) ∧
    (∀ u, (u = .week ∨ u = .dow ∨ u = .isoDow ∨ u = .doy ∨ u = .isoYear ∨ u = .julian ∨ u = .tz ∨ u = .tzHour ∨
      u = .tzMinute ∨ u = .epoch ∨ u = .delta) → a.datePart p .unit u = .err .invalid) := by
  have hm := h.1
  unfold In32 at hm
  have e := ivPart_eq p a h hf
  have m1 := tdiv_or a.month 12
  have m2 := tmod_or a.month 12
  have q1 := tdiv_or (Int.tdiv a.month 12) 10
  have q2 := tdiv_or (Int.tdiv a.month 12) 100
  have q3 := tdiv_or (Int.tdiv a.month 12) 1000
  have q4 := tdiv_or (Int.tmod a.month 12) 3
  refine ⟨⟨Int.tdiv a.month 12, ?_, ?_⟩, ⟨Int.tdiv (Int.tdiv a.month 12) 10, ?_, ?_⟩,
    ⟨Int.tdiv (Int.tdiv a.month 12) 100, ?_, ?_⟩, ⟨Int.tdiv (Int.tdiv a.month 12) 1000, ?_, ?_⟩,
    ⟨Int.tdiv a.month 12, Int.tdiv (Int.tmod a.month 12) 3, ?_, ?_, ?_⟩, ?_⟩
  · rw [e]; exact congrArg Res.ok (F64.ofInt_ok (n := Int.tdiv a.month 12) (by omega))
  · unfold WholeUnits SameSign; omega
  · rw [e]; exact congrArg Res.ok (F64.ofInt_ok (n := Int.tdiv (Int.tdiv a.month 12) 10) (by omega))
  · unfold WholeUnits SameSign; omega
  · rw [e]; exact congrArg Res.ok (F64.ofInt_ok (n := Int.tdiv (Int.tdiv a.month 12) 100) (by omega))
  · unfold WholeUnits SameSign; omega
  · rw [e]; exact congrArg Res.ok (F64.ofInt_ok (n := Int.tdiv (Int.tdiv a.month 12) 1000) (by omega))
  · unfold WholeUnits SameSign; omega
  · unfold WholeUnits SameSign; omega
  · rw [e]
    show Interval.partQuarter p (Int.tmod a.month 12) = _
    unfold Interval.partQuarter
    rw [chk32_ok (by omega), Res.bind_ok, Res.pure_eq, F64.ofInt_ok (by omega)]
  · unfold WholeUnits SameSign; omega
  · intro u hu
    rw [e]
    rcases hu with rfl | rfl | rfl | rfl | rfl | rfl | rfl | rfl | rfl | rfl | rfl <;> rfl

example : (⟨-14407, 0, 0⟩ : Interval).WF ∧ HoursFit 0 ∧
    (⟨-14407, 0, 0⟩ : Interval).datePart .debug .unit .century = .ok (.fin (-12)) ∧
    (⟨-14407, 0, 0⟩ : Interval).datePart .debug .unit .quarter = .ok (.fin (-1)) ∧
    (⟨1199, 0, 0⟩ : Interval).datePart .debug .unit .century = .ok (.fin 0) ∧
    (⟨1199, 0, 0⟩ : Interval).datePart .debug .unit .quarter = .ok (.fin 4) := by decide +kernel

/-! ## C54 -/

/-- The fields a clock shows for `v` microseconds after midnight: hour, minute and microseconds of the minute,
the seconds to within a quarter microsecond and the milliseconds to within a thousandth of one. -/
def ClockFields (f : DateUnit → Res F64) (v : Int) : Prop :=
  ∃ (h m us : Int) (s ms : Rat), f .hour = .ok (.fin h) ∧ f .minute = .ok (.fin m) ∧ f .microsec = .ok (.fin us) ∧
    f .second = .ok (.fin s) ∧ f .millisec = .ok (.fin ms) ∧
    h * 3600000000 + m * 60000000 + us = v ∧ 0 ≤ m ∧ m < 60 ∧ 0 ≤ us ∧ us < 60000000 ∧
    |s - us / 1000000| ≤ 1 / 4000000 ∧ |ms - us / 1000| ≤ 1 / 1000000

/-- **C54 (times).** The fields of a time of day up to 24:00 are its clock reading; every other unit is an
error. -/
theorem C54_time (p : Profile) (t : Time) (h0 : 0 ≤ t.v) (h1 : t.v ≤ dayMicros) :
    ClockFields (fun u => t.datePart p .unit u) t.v ∧
    (∀ u, u ≠ .hour → u ≠ .minute → u ≠ .second → u ≠ .millisec → u ≠ .microsec →
      t.datePart p .unit u = .err .invalid) := by
  have e : ∀ u, t.datePart p .unit u = Time.fieldPart
      { PgTime.new with
        hour := t.v / 3600000000, min := t.v % 3600000000 / 60000000, sec := t.v % 60000000 / 1000000 }
      (t.v % 1000000) u := by
    intro u
    unfold Time.datePart
    simp only
    rw [time_toPgtime p t h0 h1, Res.bind_ok]
  unfold dayMicros at h1
  obtain ⟨s, es, hs⟩ := F64.partSecond_near (sec := t.v % 60000000 / 1000000) (fs := t.v % 1000000) (by omega) (by omega)
  obtain ⟨ms, em, hm⟩ := F64.partMillis_near (sec := t.v % 60000000 / 1000000) (fs := t.v % 1000000) (by omega) (by omega)
  have hus : t.v % 60000000 / 1000000 * 1000000 + t.v % 1000000 = t.v % 60000000 := by omega
  rw [hus] at hs hm
  constructor
  · refine ⟨t.v / 3600000000, t.v % 3600000000 / 60000000, t.v % 60000000, s, ms, ?_, ?_, ?_, ?_, ?_, by omega,
      by omega, by omega, by omega, by omega, hs, hm⟩
    · exact (e _).trans (congrArg Res.ok (F64.ofInt_ok (n := t.v / 3600000000) (by omega)))
    · exact (e _).trans (congrArg Res.ok (F64.ofInt_ok (n := t.v % 3600000000 / 60000000) (by omega)))
    · rw [← hus]; exact (e _).trans (congrArg Res.ok (F64.partMicros_eq (sec := t.v % 60000000 / 1000000)
        (fs := t.v % 1000000) (by omega) (by omega)))
    · exact (e _).trans (congrArg Res.ok es)
    · exact (e _).trans (congrArg Res.ok em)
  · intro u u1 u2 u3 u4 u5
    rw [e]
    cases u <;> first | rfl | contradiction

example : (⟨86400000000⟩ : Time).datePart .debug .unit .hour = .ok (.fin 24) ∧
    (⟨3723000001⟩ : Time).datePart .debug .unit .microsec = .ok (.fin 3000001) ∧
    (⟨3723000001⟩ : Time).datePart .debug .unit .day = .err .invalid := by decide +kernel

/-- **C54 (timestamps).** The clock fields of a valid timestamp are the clock reading of its instant, day and
month are those of its calendar day, and the Julian field is the Julian day number (2451545 on 2000-01-01) plus
the elapsed fraction of the day, to within 2e-8. -/
theorem C54_timestamp (p : Profile) (t : Timestamp) (h : TsRange t.v) (c : YMD) (hc : c.Real)
    (hd : dayNumber c = t.v / dayMicros) :
    ClockFields (fun u => t.datePart p .unit u) (t.v % dayMicros) ∧
    t.datePart p .unit .day = .ok (.fin c.d) ∧ t.datePart p .unit .month = .ok (.fin c.m) ∧
    ∃ j : Rat, t.datePart p .unit .julian = .ok (.fin j) ∧
      |j - (dayNumber c + 2451545 + (t.v % dayMicros : Int) / dayMicros)| ≤ 1 / 50000000 := by
  have hb := real_bounds hc
  have hr := (tsRange_iff _).1 h
  have key : ∀ u, -4713 ≤ c.y ∧ c.y ≤ 294276 ∧
      t.datePart p .unit u = Timestamp.fieldPart p (tmOf c (clockOf t.v)) (clockOf t.v).us u := by
    intro u
    obtain ⟨c', hr, hd', hy1, hy2, e⟩ := datePart_eq p h u
    obtain rfl : c = c' := dayNumber_inj hc hr (by rw [hd, hd']; rfl)
    exact ⟨hy1, hy2, e⟩
  obtain ⟨hy1, hy2, -⟩ := key .year
  have e := fun u => (key u).2.2
  unfold dayMicros at *
  obtain ⟨s, es, hs⟩ := F64.partSecond_near (sec := t.v % 60000000 / 1000000) (fs := t.v % 1000000) (by omega) (by omega)
  obtain ⟨ms, em, hm⟩ := F64.partMillis_near (sec := t.v % 60000000 / 1000000) (fs := t.v % 1000000) (by omega) (by omega)
  have hus : t.v % 60000000 / 1000000 * 1000000 + t.v % 1000000 = t.v % 60000000 := by omega
  rw [hus] at hs hm
  refine ⟨?_, ?_, ?_, ?_⟩
  · refine ⟨t.v % 86400000000 / 3600000000, t.v % 3600000000 / 60000000, t.v % 60000000, s, ms, ?_, ?_, ?_, ?_, ?_,
      by omega, by omega, by omega, by omega, by omega, hs, hm⟩
    · exact (e _).trans (congrArg Res.ok (F64.ofInt_ok (n := t.v % 86400000000 / 3600000000) (by omega)))
    · exact (e _).trans (congrArg Res.ok (F64.ofInt_ok (n := t.v % 3600000000 / 60000000) (by omega)))
    · rw [← hus]; exact (e _).trans (congrArg Res.ok (F64.partMicros_eq (sec := t.v % 60000000 / 1000000)
        (fs := t.v % 1000000) (by omega) (by omega)))
    · exact (e _).trans (congrArg Res.ok es)
    · exact (e _).trans (congrArg Res.ok em)
  · rw [e]; exact congrArg Res.ok (F64.ofInt_ok (n := c.d) (by omega))
  · rw [e]; exact congrArg Res.ok (F64.ofInt_ok (n := c.m) (by omega))
  · have ec := jdn_eq c
    obtain ⟨j, ej, hj⟩ := F64.julian_near (j := jdn c.y c.m c.d)
      (a := (t.v % 86400000000 / 3600000000 * 60 + t.v % 3600000000 / 60000000) * 60)
      (sec := t.v % 60000000 / 1000000) (fs := t.v % 1000000) (by omega) (by omega) (by omega) (by omega)
    refine ⟨j, ?_, ?_⟩
    · rw [e]
      simp only [Timestamp.fieldPart, Timestamp.partJulian, tmOf, clockOf]
      rw [date2julian_eq p _ _ _ (by omega) (by omega) (by omega) (by omega) (by omega) (by omega)
        (by omega), Res.bind_ok, chk64_ok (by omega), Res.bind_ok, chk64_ok (by omega), Res.bind_ok,
        chk64_ok (by omega), Res.bind_ok]
      exact congrArg Res.ok ej
    · have hs2 : ((t.v % 86400000000 / 3600000000 * 60 + t.v % 3600000000 / 60000000) * 60 +
          t.v % 60000000 / 1000000) * 1000000 + t.v % 1000000 = t.v % 86400000000 := by omega
      rw [hs2, ec] at hj
      push_cast at hj ⊢
      exact hj

example : (⟨762525045000001⟩ : Timestamp).datePart .debug .unit .hour = .ok (.fin 12) ∧
    (⟨762525045000001⟩ : Timestamp).datePart .debug .unit .microsec = .ok (.fin 45000001) ∧
    (⟨762523200000000⟩ : Timestamp).datePart .debug .unit .julian = .ok (.fin (2460370 + 1 / 2)) := by decide +kernel

/-- **C54 (infinity).** On the infinite timestamps the units that grow with time are the infinity of that sign,
the units that come round again are zero. -/
theorem C54_infinite (p : Profile) (ty : FieldType) (u : DateUnit) :
    ((u = .year ∨ u = .decade ∨ u = .century ∨ u = .millennium ∨ u = .julian ∨ u = .isoYear ∨ u = .epoch) →
      Timestamp.END.datePart p ty u = .ok (.inf false) ∧ Timestamp.BEGIN.datePart p ty u = .ok (.inf true)) ∧
    ((u = .microsec ∨ u = .millisec ∨ u = .second ∨ u = .minute ∨ u = .hour ∨ u = .day ∨ u = .week ∨ u = .month ∨
      u = .quarter ∨ u = .dow ∨ u = .isoDow ∨ u = .doy) →
      Timestamp.END.datePart p ty u = .ok (.fin 0) ∧ Timestamp.BEGIN.datePart p ty u = .ok (.fin 0)) := by
  constructor
  · rintro (rfl | rfl | rfl | rfl | rfl | rfl | rfl) <;> exact ⟨rfl, rfl⟩
  · rintro (rfl | rfl | rfl | rfl | rfl | rfl | rfl | rfl | rfl | rfl | rfl | rfl) <;> exact ⟨rfl, rfl⟩

/-! ## C55 -/

/-- **C55 (times).** The epoch of a time of day is its seconds, to within 1e-10. -/
theorem C55_time_partial (p : Profile) (t : Time) (h0 : 0 ≤ t.v) (h1 : t.v ≤ dayMicros) :
    ∃ e : Rat, t.datePart p .epoch .epoch = .ok (.fin e) ∧ |e - t.v / 1000000| ≤ 1 / 10000000000 := by
  unfold dayMicros at h1
  have a1 : (0 : Rat) ≤ t.v := by exact_mod_cast h0
  have a2 : (t.v : Rat) ≤ 86400000000 := by exact_mod_cast h1
  obtain ⟨e, e1, e2⟩ := F64.rnd_within (q := (t.v : Rat) / 1000000) (b := 86400)
    (by rw [abs_le]; constructor <;> linarith) (by norm_num)
  norm_num at e2
  refine ⟨e, ?_, le_trans e2 (by norm_num)⟩
  unfold Time.datePart
  simp only [if_true]
  rw [F64.ofInt_ok (by omega), F64.fin_div (by norm_num), e1]

/-- **C55 (intervals).** The epoch of an interval is its length in seconds, counting 365.25 days for each whole
year of its months, 30 days for each month left over and 86400 seconds for each day, up to a relative error of
2^-50 in the sizes of the four parts. -/
theorem C55_interval_partial (p : Profile) (a : Interval) (h : a.WF) :
    ∃ (y m : Int) (e : Rat), WholeUnits 12 a.month y ∧ 12 * y + m = a.month ∧
      a.datePart p .epoch .epoch = .ok (.fin e) ∧
      |e - (a.time / 1000000 + 365.25 * 86400 * y + 30 * 86400 * m + 86400 * a.day)| ≤
        (|(a.time : Rat)| / 1000000 + 365.25 * 86400 * |(y : Rat)| + 30 * 86400 * |(m : Rat)| +
          86400 * |(a.day : Rat)|) / 2 ^ 50 := by
  obtain ⟨hm, hd, ht⟩ := h
  unfold In32 at hm hd
  unfold In64 at ht
  have m1 := tdiv_or a.month 12
  have m2 := tmod_or a.month 12
  obtain ⟨e, e1, e2⟩ := F64.sum_near (t := a.time) (y := Int.tdiv a.month 12) (m := Int.tmod a.month 12) (d := a.day)
    (by omega) (by omega) (by omega) (by omega)
  refine ⟨Int.tdiv a.month 12, Int.tmod a.month 12, e, ?_, by omega, ?_, ?_⟩
  · unfold WholeUnits SameSign; omega
  · exact congrArg Res.ok e1
  · norm_num at e2 ⊢
    exact e2

example : (⟨14, 3, 1500000⟩ : Interval).datePart .debug .epoch .epoch = .ok (.fin (31557600 + 2 * 2592000 + 3 * 86400 + 3 / 2)) ∧
    (⟨43200500000⟩ : Time).datePart .debug .epoch .epoch = .ok (.fin (43200 + 1 / 2)) := by decide +kernel

/-- Seconds since the epoch of a finite timestamp or date are not supported: always an error, in both
spellings. -/
theorem C55_timestamp_unsupported (p : Profile) (t : Timestamp) (h : TsRange t.v) (ty : FieldType) :
    t.datePart p ty .epoch = .err .invalid := by
  cases ty
  · obtain ⟨c, -, -, -, -, e⟩ := datePart_eq p h .epoch
    rw [e]; rfl
  · unfold Timestamp.datePart
    rw [notInf h]; rfl

end Props
