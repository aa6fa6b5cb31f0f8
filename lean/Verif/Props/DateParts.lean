import Verif.Model.DatePart
import Verif.Lemmas.F64
import Verif.Lemmas.IsoWeek
import Verif.Lemmas.IntervalFields
import Verif.Spec.Fields
import Verif.Props.Truncate
import Verif.Props.TimestampArith

/-!
# Field extraction (C27, C28, C29, C48)
-/

namespace Props
open Pg Spec

theorem datePart_eq (p : Profile) {t : Timestamp} (h : TsRange t.v) (u : DateUnit) :
    ∃ c : YMD, c.Real ∧ dayNumber c = t.v / 86400000000 ∧ -4713 ≤ c.y ∧ c.y ≤ 294276 ∧
      t.datePart p .unit u = Timestamp.fieldPart p (tmOf c (clockOf t.v)) (clockOf t.v).us u := by
  obtain ⟨c, hr, hd, hy1, hy2, he⟩ := fields_spec p h
  refine ⟨c, hr, hd, hy1, hy2, ?_⟩
  unfold Timestamp.datePart
  rw [notInf h]
  simp only [Bool.false_eq_true, if_false, he, Res.bind_ok]

/-! ## C27 -/

/-- **C27.** `IsoYear`, `Week` and `IsoDow` of a valid timestamp are the ISO 8601 week date of its
day. -/
theorem C27_iso_week_date (p : Profile) (t : Timestamp) (h : TsRange t.v) :
    ∃ y w d : Int, t.datePart p .unit .isoYear = .ok (.fin y) ∧
      t.datePart p .unit .week = .ok (.fin w) ∧ t.datePart p .unit .isoDow = .ok (.fin d) ∧
      IsoWeekDate (t.v / dayMicros) y w d ∧ 1 ≤ w ∧ w ≤ 53 ∧ 1 ≤ d ∧ d ≤ 7 := by
  have h' := (tsRange_iff _).1 h
  obtain ⟨c, hr, hd, hy1, hy2, e1⟩ := datePart_eq p h .isoYear
  obtain ⟨c', hr', hd', -, -, e2⟩ := datePart_eq p h .week
  obtain ⟨c'', hr'', hd'', -, -, e3⟩ := datePart_eq p h .isoDow
  obtain rfl : c = c' := dayNumber_inj hr hr' (by omega)
  obtain rfl : c = c'' := dayNumber_inj hr hr'' (by omega)
  have ec := jdn_eq c
  have hb := real_bounds hr
  obtain ⟨Y, hY, hYl, b1, b2, i1, i2⟩ := iso_spec p hr (by omega) ⟨hy1, hy2⟩
  have f1 := jdn_jan4 Y
  have f2 := jdn_jan4 (Y + 1)
  have e := jdn_year_len Y
  have m1 : isoMon Y = jdn Y 1 4 - jdn Y 1 4 % 7 := rfl
  have m2 : isoMon (Y + 1) = jdn (Y + 1) 1 4 - jdn (Y + 1) 1 4 % 7 := rfl
  refine ⟨Y, (jdn c.y c.m c.d - isoMon Y) / 7 + 1, weekday (dayNumber c) + 1, ?_, ?_, ?_, ?_,
    by omega, by omega, by unfold weekday; omega, by unfold weekday; omega⟩
  · rw [e1]
    simp only [Timestamp.fieldPart, Timestamp.partOfInt, tmOf, i1, Res.bind_ok, Res.pure_eq]
    rw [F64.ofInt_ok (by omega)]
  · rw [e2]
    simp only [Timestamp.fieldPart, Timestamp.partOfInt, tmOf, i2, Res.bind_ok, Res.pure_eq]
    rw [F64.ofInt_ok (by omega)]
  · rw [e3]
    simp only [Timestamp.fieldPart, Timestamp.partDow, tmOf]
    rw [date2julian_eq p _ _ _ (by omega) (by omega) (by omega) (by omega) (by omega) (by omega)
      (by omega), Res.bind_ok, julianToWeekDay_eq p (by omega), Res.bind_ok]
    unfold weekday
    by_cases hz : (jdn c.y c.m c.d + 1) % 7 = 0
    · rw [hz]
      simp only [Bool.true_and, beq_self_eq_true, if_true]
      rw [show (dayNumber c + 5) % 7 + 1 = 7 by omega]
      rfl
    · rw [if_neg (by simp [hz]), F64.ofInt_ok (by omega), show (jdn c.y c.m c.d + 1) % 7 =
        (dayNumber c + 5) % 7 + 1 by omega]
  · rw [show t.v / dayMicros = dayNumber c from hd.symm]
    exact isoWeekDate_iff b1 b2 rfl

/-- **C27.** The ISO week date determines the day and is determined by it. -/
theorem C27_unique (n n' y y' w w' d d' : Int) (h : IsoWeekDate n y w d) :
    (IsoWeekDate n' y w d → n' = n) ∧
    (IsoWeekDate n y' w' d' → y' = y ∧ w' = w ∧ d' = d) := by
  constructor
  · intro h'
    unfold IsoWeekDate weekMonday weekday at *
    omega
  · intro h'
    have hy : y = y' := by
      obtain ⟨⟨a1, a2⟩, -, -⟩ := h
      obtain ⟨⟨b1, b2⟩, -, -⟩ := h'
      have q1 := @dayNumber_lt_iff ⟨y + 1, 1, 1⟩ ⟨y', 1, 1⟩ (by rw [real_iff]; have := monthDays_bounds (y + 1) 1; simp only; omega)
        (by rw [real_iff]; have := monthDays_bounds y' 1; simp only; omega)
      have q2 := @dayNumber_lt_iff ⟨y' + 1, 1, 1⟩ ⟨y, 1, 1⟩ (by rw [real_iff]; have := monthDays_bounds (y' + 1) 1; simp only; omega)
        (by rw [real_iff]; have := monthDays_bounds y 1; simp only; omega)
      have e1 := jdn_year_len y
      have e2 := jdn_year_len y'
      unfold YMD.lt at q1 q2
      simp only [Int.lt_irrefl, and_false, or_false] at q1 q2
      by_cases g : y + 1 < y'
      · have := q1.2 g; omega
      · by_cases g' : y' + 1 < y
        · have := q2.2 g'; omega
        · have hcase : y' = y + 1 ∨ y = y' + 1 ∨ y = y' := by omega
          rcases hcase with g2 | g2 | g2
          · rw [g2] at b1; omega
          · rw [g2] at a1; omega
          · exact g2
    subst hy
    refine ⟨rfl, ?_⟩
    unfold IsoWeekDate weekMonday weekday at *
    omega

example : TsRange (instant ⟨2018, 12, 31⟩ ⟨5, 0, 0, 0⟩) ∧
    (⟨instant ⟨2018, 12, 31⟩ ⟨5, 0, 0, 0⟩⟩ : Timestamp).datePart .debug .unit .isoYear = .ok (.fin 2019) ∧
    (⟨instant ⟨2018, 12, 31⟩ ⟨5, 0, 0, 0⟩⟩ : Timestamp).datePart .debug .unit .week = .ok (.fin 1) ∧
    (⟨instant ⟨2018, 12, 31⟩ ⟨5, 0, 0, 0⟩⟩ : Timestamp).datePart .debug .unit .isoDow = .ok (.fin 1) := by
  decide +kernel

/-! ## C28 -/

/-- **C28.** `Dow` of day number `n` (days since 2000-01-01, a Saturday) is `6 + n` modulo 7,
Sunday being 0. -/
theorem C28_dow (p : Profile) (t : Timestamp) (h : TsRange t.v) :
    t.datePart p .unit .dow = .ok (.fin (((6 + t.v / dayMicros) % 7 : Int) : Rat)) := by
  have h' := (tsRange_iff _).1 h
  obtain ⟨c, hr, hd, hy1, hy2, e⟩ := datePart_eq p h .dow
  have ec := jdn_eq c
  have hb := real_bounds hr
  rw [e]
  simp only [Timestamp.fieldPart, Timestamp.partDow, tmOf]
  rw [date2julian_eq p _ _ _ (by omega) (by omega) (by omega) (by omega) (by omega) (by omega)
    (by omega), Res.bind_ok, julianToWeekDay_eq p (by omega), Res.bind_ok]
  simp only [Bool.false_and, Bool.false_eq_true, if_false]
  rw [F64.ofInt_ok (by omega)]
  unfold dayMicros
  rw [show (jdn c.y c.m c.d + 1) % 7 = (6 + t.v / 86400000000) % 7 by omega]

theorem jdn_yearDays (y : Int) : jdn (y + 1) 1 1 = jdn y 1 1 + yearDays y := by
  rw [jdn_closed _ _ _ (by omega) (by omega), jdn_closed _ _ _ (by omega) (by omega)]
  simp only [show ¬ ((1 : Int) > 2) by omega, if_false]
  unfold yearDays
  by_cases hl : Leap y
  · rw [if_pos hl]; unfold Leap at hl; omega
  · rw [if_neg hl]; unfold Leap at hl; omega

/-- **C28.** `Doy` is 1 on January 1, advances by one each day of the year, and ends at the length
of the year. -/
theorem C28_doy (p : Profile) (t : Timestamp) (h : TsRange t.v) (c : YMD) (hc : c.Real)
    (hd : dayNumber c = t.v / dayMicros) :
    ∃ k : Int, t.datePart p .unit .doy = .ok (.fin k) ∧
      k = dayNumber c - dayNumber ⟨c.y, 1, 1⟩ + 1 ∧
      1 ≤ k ∧ k ≤ yearDays c.y ∧ (c.m = 1 ∧ c.d = 1 → k = 1) ∧
      (c.m = 12 ∧ c.d = 31 → k = yearDays c.y) := by
  have h' := (tsRange_iff _).1 h
  obtain ⟨c', hr, hd', hy1, hy2, e⟩ := datePart_eq p h .doy
  obtain rfl : c = c' := dayNumber_inj hc hr (by rw [hd, hd']; rfl)
  have ec := jdn_eq c
  have ec1 := jdn_eq ⟨c.y, 1, 1⟩
  have hb := real_bounds hr
  have hyb := jdn_year_bounds c.y c.m c.d hc
  have hys := jdn_year_step c.y
  have hbig := jdn_jan4_bounds (y := c.y) (by omega)
  have f := jdn_jan4 c.y
  have hyd := jdn_yearDays c.y
  refine ⟨_, ?_, rfl, ?_, ?_, ?_, ?_⟩
  · rw [e]
    simp only [Timestamp.fieldPart, Timestamp.partDoy, tmOf]
    rw [date2julian_eq p _ _ _ (by omega) (by omega) (by omega) (by omega) (by omega) (by omega)
      (by omega), Res.bind_ok, date2julian_eq p _ 1 1 (by omega) (by omega) (by omega) (by omega)
      (by omega) (by omega) (by omega), Res.bind_ok, chk32_ok (by omega), Res.bind_ok,
      chk32_ok (by omega), Res.bind_ok, Res.pure_eq, F64.ofInt_ok (by omega)]
    simp only at ec1
    rw [show jdn c.y c.m c.d - jdn c.y 1 1 + 1 = dayNumber c - dayNumber ⟨c.y, 1, 1⟩ + 1 by omega]
  · simp only at ec1; omega
  · simp only at ec1; omega
  · rintro ⟨g1, g2⟩
    rw [g1, g2] at ec
    simp only at ec1; omega
  · rintro ⟨g1, g2⟩
    rw [g1, g2, jdn_day _ _ _ (by omega) (by omega)] at ec
    simp only at ec1; omega

example : TsRange (instant ⟨2024, 12, 31⟩ ⟨5, 0, 0, 0⟩) ∧
    (⟨instant ⟨2024, 12, 31⟩ ⟨5, 0, 0, 0⟩⟩ : Timestamp).datePart .debug .unit .doy = .ok (.fin 366) ∧
    (⟨0⟩ : Timestamp).datePart .debug .unit .dow = .ok (.fin 6) ∧
    (⟨86400000000⟩ : Timestamp).datePart .debug .unit .dow = .ok (.fin 0) := by
  decide +kernel

/-! ## C29 -/

/-- **C29.** The `Quarter`, `Year`, `Decade`, `Century` and `Millennium` of a valid timestamp whose
day is `c`. -/
theorem C29_fields (p : Profile) (t : Timestamp) (h : TsRange t.v) (c : YMD) (hc : c.Real)
    (hd : dayNumber c = t.v / dayMicros) :
    (∃ k : Int, t.datePart p .unit .quarter = .ok (.fin k) ∧ QuarterField c.m k) ∧
    (∃ k : Int, t.datePart p .unit .year = .ok (.fin k) ∧ YearField c.y k) ∧
    (∃ k : Int, t.datePart p .unit .decade = .ok (.fin k) ∧ DecadeField c.y k) ∧
    (∃ k : Int, t.datePart p .unit .century = .ok (.fin k) ∧ PeriodField 100 c.y k) ∧
    (∃ k : Int, t.datePart p .unit .millennium = .ok (.fin k) ∧ PeriodField 1000 c.y k) := by
  have hb := real_bounds hc
  have key : ∀ u, -4713 ≤ c.y ∧ c.y ≤ 294276 ∧
      t.datePart p .unit u = Timestamp.fieldPart p (tmOf c (clockOf t.v)) (clockOf t.v).us u := by
    intro u
    obtain ⟨c', hr, hd', hy1, hy2, e⟩ := datePart_eq p h u
    obtain rfl : c = c' := dayNumber_inj hc hr (by rw [hd, hd']; rfl)
    exact ⟨hy1, hy2, e⟩
  obtain ⟨hy1, hy2, -⟩ := key .year
  refine ⟨?_, ?_, ?_, ?_, ?_⟩ <;> rw [(key _).2.2]
  · change ∃ k : Int, Timestamp.partQuarter p c.m = .ok (.fin k) ∧ _
    unfold Timestamp.partQuarter
    rw [chk32_ok (by omega), Res.bind_ok, tdiv_nn (by omega), chk32_ok (by omega), Res.bind_ok,
      F64.ofInt_ok (by omega)]
    exact ⟨_, rfl, by unfold QuarterField; omega⟩
  · change ∃ k : Int, Timestamp.partYear p c.y = .ok (.fin k) ∧ _
    unfold Timestamp.partYear
    by_cases hs : c.y > 0
    · rw [if_pos hs, F64.ofInt_ok (by omega)]
      exact ⟨_, rfl, by unfold YearField; omega⟩
    · rw [if_neg hs, chk32_ok (by omega), Res.bind_ok, F64.ofInt_ok (by omega)]
      exact ⟨_, rfl, by unfold YearField; omega⟩
  · change ∃ k : Int, Timestamp.partDecade p c.y = .ok (.fin k) ∧ _
    unfold Timestamp.partDecade
    by_cases hs : c.y ≥ 0
    · rw [if_pos hs, tdiv_nn (by omega), F64.ofInt_ok (by omega)]
      exact ⟨_, rfl, by unfold DecadeField; omega⟩
    · rw [if_neg hs, chk32_ok (by omega), Res.bind_ok, chk32_ok (by omega), Res.bind_ok, tdiv_nn (by omega),
        chk32_ok (by omega), Res.bind_ok, F64.ofInt_ok (by omega)]
      exact ⟨_, rfl, by unfold DecadeField; omega⟩
  · change ∃ k : Int, Timestamp.partCentury p c.y = .ok (.fin k) ∧ _
    unfold Timestamp.partCentury
    by_cases hs : c.y > 0
    · rw [if_pos hs, chk32_ok (by omega), Res.bind_ok, tdiv_nn (by omega), F64.ofInt_ok (by omega)]
      exact ⟨_, rfl, by unfold PeriodField; omega⟩
    · rw [if_neg hs, chk32_ok (by omega), Res.bind_ok, chk32_ok (by omega), Res.bind_ok, tdiv_nn (by omega),
        chk32_ok (by omega), Res.bind_ok, F64.ofInt_ok (by omega)]
      exact ⟨_, rfl, by unfold PeriodField; omega⟩
  · change ∃ k : Int, Timestamp.partMillennium p c.y = .ok (.fin k) ∧ _
    unfold Timestamp.partMillennium
    by_cases hs : c.y > 0
    · rw [if_pos hs, chk32_ok (by omega), Res.bind_ok, tdiv_nn (by omega), F64.ofInt_ok (by omega)]
      exact ⟨_, rfl, by unfold PeriodField; omega⟩
    · rw [if_neg hs, chk32_ok (by omega), Res.bind_ok, chk32_ok (by omega), Res.bind_ok, tdiv_nn (by omega),
        chk32_ok (by omega), Res.bind_ok, F64.ofInt_ok (by omega)]
      exact ⟨_, rfl, by unfold PeriodField; omega⟩

example : TsRange (instant ⟨-99, 7, 1⟩ ⟨0, 0, 0, 0⟩) ∧ PeriodField 100 (-99) (-1) ∧
    (⟨instant ⟨-99, 7, 1⟩ ⟨0, 0, 0, 0⟩⟩ : Timestamp).datePart .debug .unit .century = .ok (.fin (-1)) ∧
    (⟨instant ⟨-100, 7, 1⟩ ⟨0, 0, 0, 0⟩⟩ : Timestamp).datePart .debug .unit .century = .ok (.fin (-2)) ∧
    (⟨instant ⟨-100, 7, 1⟩ ⟨0, 0, 0, 0⟩⟩ : Timestamp).datePart .debug .unit .year = .ok (.fin (-101)) := by
  refine ⟨by decide, by unfold PeriodField; omega, ?_⟩
  decide +kernel

/-- **C29.** Two valid timestamps have the same `Year`, `Decade`, `Century` or `Millennium` exactly
if they lie in the same unit in the sense of `truncate`. -/
theorem C29_constant_on_units (p : Profile) (u : DateUnit)
    (hu : u = .year ∨ u = .decade ∨ u = .century ∨ u = .millennium)
    (s t : Timestamp) (hs : TsRange s.v) (ht : TsRange t.v) :
    s.datePart p .unit u = t.datePart p .unit u ↔ ∃ g, UnitFloor u s.v g ∧ UnitFloor u t.v g := by
  obtain ⟨c, hr, hd, hy1, hy2, e⟩ := datePart_eq p hs u
  obtain ⟨c', hr', hd', hy1', hy2', e'⟩ := datePart_eq p ht u
  have f := C29_fields p s hs c hr hd
  have f' := C29_fields p t ht c' hr' hd'
  have hT : TruncUnit u := by
    rcases hu with rfl | rfl | rfl | rfl <;> (unfold TruncUnit; decide)
  have g1 := truncOf_floor hT hr (clockOf_real s.v)
  have g2 := truncOf_floor hT hr' (clockOf_real t.v)
  rw [instant_fields hd] at g1
  rw [instant_fields hd'] at g2
  have hiff : (∃ g, UnitFloor u s.v g ∧ UnitFloor u t.v g) ↔ truncDayOf u c = truncDayOf u c' := by
    have hk : truncClockOf u (clockOf s.v) = ⟨0, 0, 0, 0⟩ ∧ truncClockOf u (clockOf t.v) = ⟨0, 0, 0, 0⟩ := by
      rcases hu with rfl | rfl | rfl | rfl <;> exact ⟨rfl, rfl⟩
    constructor
    · rintro ⟨g, a, b⟩
      have e1 := unitFloor_unique a g1
      have e2 := unitFloor_unique b g2
      rw [hk.1] at e1
      rw [hk.2] at e2
      unfold instant dayMicros at e1 e2
      exact dayNumber_inj (truncDayOf_real hr) (truncDayOf_real hr') (by omega)
    · intro hh
      refine ⟨_, g1, ?_⟩
      rw [hk.1, hh]
      rw [hk.2] at g2
      exact g2
  rw [hiff]
  obtain ⟨-, ⟨a1, a2, a3⟩, ⟨b1, b2, b3⟩, ⟨d1, d2, d3⟩, ⟨k1, k2, k3⟩⟩ := f
  obtain ⟨-, ⟨a1', a2', a3'⟩, ⟨b1', b2', b3'⟩, ⟨d1', d2', d3'⟩, ⟨k1', k2', k3'⟩⟩ := f'
  rcases hu with rfl | rfl | rfl | rfl
  · rw [a2, a2', Res.ok.injEq, F64.fin_int_inj]
    unfold YearField at *
    simp only [truncDayOf, YMD.mk.injEq, and_true]
    omega
  · rw [b2, b2', Res.ok.injEq, F64.fin_int_inj]
    unfold DecadeField at *
    simp only [truncDayOf, YMD.mk.injEq, and_true]
    omega
  · rw [d2, d2', Res.ok.injEq, F64.fin_int_inj]
    unfold PeriodField at *
    simp only [truncDayOf, YMD.mk.injEq, and_true]
    omega
  · rw [k2, k2', Res.ok.injEq, F64.fin_int_inj]
    unfold PeriodField at *
    simp only [truncDayOf, YMD.mk.injEq, and_true]
    omega

end Props
