import Verif.Props.DateParts

/-!
# Property C117: the ISO year is the year of the Thursday of the week
-/

namespace Pg
open Spec

/-- A day and the year it lies in. -/
theorem inYear_real {c : YMD} (hc : c.Real) : InYear c.y (dayNumber c) := by
  have hb := real_bounds hc
  have e := jdn_eq c
  have e1 := jdn_eq ⟨c.y, 1, 1⟩
  have e2 := jdn_eq ⟨c.y + 1, 1, 1⟩
  have hyb := jdn_year_bounds c.y c.m c.d hc
  have hys := jdn_year_step c.y
  unfold InYear
  dsimp only at *
  omega

/-- The year a day lies in. -/
theorem inYear_unique {y y' n : Int} (h : InYear y n) (h' : InYear y' n) : y = y' := by
  obtain ⟨a1, a2⟩ := h
  obtain ⟨b1, b2⟩ := h'
  have r (y : Int) : (⟨y, 1, 1⟩ : YMD).Real := by rw [real_iff]; have := monthDays_bounds y 1; simp only; omega
  have q1 := dayNumber_lt_iff (r y') (r (y + 1))
  have q2 := dayNumber_lt_iff (r y) (r (y' + 1))
  unfold YMD.lt at q1 q2
  simp only at q1 q2
  omega

end Pg

namespace Props
open Pg Spec

/-- **C117.** `t` is any timestamp, `s` one on the Thursday of its week. If the Thursday is after Christ, the ISO year of `t` is the
year of `s`; else it is larger by one. -/
theorem C117_thursday_partial (p : Profile) (t s : Timestamp) (ht : TsRange t.v) (hs : TsRange s.v)
    (hw : s.v / dayMicros = weekMonday (t.v / dayMicros) + 3) :
    ∃ y f : Int, t.datePart p .unit .isoYear = .ok (.fin y) ∧ s.datePart p .unit .year = .ok (.fin f) ∧
      ((0 < f ∧ y = f) ∨ (f < 0 ∧ y = f + 1)) := by
  obtain ⟨y, w, d, e, -, -, h, -⟩ := C27_iso_week_date p t ht
  obtain ⟨c, hr, hd, -, -, -⟩ := datePart_eq p hs .year
  obtain ⟨f, e2, hf⟩ := (C29_fields p s hs c hr hd).2.1
  refine ⟨y, f, e, e2, ?_⟩
  have h1 := h.1
  rw [← hw] at h1
  have h2 := inYear_real hr
  rw [hd] at h2
  have h3 := inYear_unique h1 h2
  unfold YearField at hf
  omega

/-- Monday, 30 December 2024, and the Thursday after it. -/
example : TsRange (instant ⟨2024, 12, 30⟩ ⟨5, 0, 0, 0⟩) ∧ TsRange (instant ⟨2025, 1, 2⟩ ⟨7, 0, 0, 0⟩) ∧
    instant ⟨2025, 1, 2⟩ ⟨7, 0, 0, 0⟩ / dayMicros = weekMonday (instant ⟨2024, 12, 30⟩ ⟨5, 0, 0, 0⟩ / dayMicros) + 3 ∧
    (⟨instant ⟨2024, 12, 30⟩ ⟨5, 0, 0, 0⟩⟩ : Timestamp).datePart .debug .unit .isoYear = .ok (.fin 2025) ∧
    (⟨instant ⟨2025, 1, 2⟩ ⟨7, 0, 0, 0⟩⟩ : Timestamp).datePart .debug .unit .year = .ok (.fin 2025) := by
  decide +kernel

/-- **C117, violated.** On every Thursday before Christ, ISO year and year differ; 4 January of the year 1 BC, a Tuesday, has the
ISO year 0, a year that there is not. -/
theorem C117_violated (p : Profile) : (∀ s : Timestamp, TsRange s.v → weekday (s.v / dayMicros) = 3 →
      (∃ f : Int, s.datePart p .unit .year = .ok (.fin f) ∧ f < 0) → s.datePart p .unit .isoYear ≠ s.datePart p .unit .year) ∧
    TsRange (instant ⟨0, 1, 4⟩ ⟨0, 0, 0, 0⟩) ∧
    (⟨instant ⟨0, 1, 4⟩ ⟨0, 0, 0, 0⟩⟩ : Timestamp).datePart p .unit .isoYear = .ok (.fin 0) ∧
    (⟨instant ⟨0, 1, 4⟩ ⟨0, 0, 0, 0⟩⟩ : Timestamp).datePart p .unit .year = .ok (.fin (-1)) := by
  refine ⟨?_, ?_⟩
  · rintro s hs hw ⟨f, hf, hneg⟩ e
    obtain ⟨y, g, e1, e2, h⟩ := C117_thursday_partial p s s hs hs (by unfold weekMonday; omega)
    rw [e1, e2] at e
    rw [e2] at hf
    have h1 : (y : Rat) = g := by injection e with e; injection e
    have h2 : (g : Rat) = f := by injection hf with e; injection e
    have h1 : y = g := by exact_mod_cast h1
    have h2 : g = f := by exact_mod_cast h2
    omega
  · cases p <;> decide +kernel

/-- **C117, near the turn of the year.** The ISO year is the year of the day itself, but for the first three and the last three days
of a year, where it may be the year before or after. -/
theorem C117_near (p : Profile) (t : Timestamp) (ht : TsRange t.v) (c : YMD) (hc : c.Real) (hd : dayNumber c = t.v / dayMicros) :
    ∃ y : Int, t.datePart p .unit .isoYear = .ok (.fin y) ∧
      (y = c.y ∨ (y = c.y - 1 ∧ c.m = 1 ∧ c.d ≤ 3 ∧ 4 ≤ weekday (dayNumber c)) ∨
        (y = c.y + 1 ∧ c.m = 12 ∧ 29 ≤ c.d ∧ weekday (dayNumber c) ≤ 2)) := by
  obtain ⟨y, w, d, e, -, -, h, -⟩ := C27_iso_week_date p t ht
  refine ⟨y, e, ?_⟩
  have h1 := h.1
  rw [← hd] at h1
  have h2 := inYear_real hc
  have hb := real_bounds hc
  have hw : 0 ≤ weekday (dayNumber c) ∧ weekday (dayNumber c) ≤ 6 := by unfold weekday; omega
  by_cases ha : InYear c.y (weekMonday (dayNumber c) + 3)
  · exact .inl (inYear_unique h1 ha)
  · have r (m d : Int) (h : (m = 1 ∧ d = 4) ∨ (m = 12 ∧ d = 28)) : (⟨c.y, m, d⟩ : YMD).Real := by
      rw [real_iff]
      rcases h with ⟨rfl, rfl⟩ | ⟨rfl, rfl⟩
      · have := monthDays_bounds c.y 1; simp only; omega
      · have := monthDays_bounds c.y 12; simp only; omega
    have l1 := @dayNumber_lt_iff c ⟨c.y, 1, 4⟩ hc (r 1 4 (by omega))
    have l2 := @dayNumber_lt_iff ⟨c.y, 12, 28⟩ c (r 12 28 (by omega)) hc
    unfold YMD.lt at l1 l2
    have e1 := jdn_eq ⟨c.y, 1, 1⟩
    have e2 := jdn_eq ⟨c.y + 1, 1, 1⟩
    have e3 := jdn_eq ⟨c.y - 1, 1, 1⟩
    have e4 := jdn_eq ⟨c.y + 1 + 1, 1, 1⟩
    have e5 := jdn_eq ⟨c.y, 1, 4⟩
    have e6 := jdn_eq ⟨c.y, 12, 28⟩
    have s1 := jdn_year_step c.y
    have s2 := jdn_yearDays (c.y - 1)
    have s3 := jdn_yearDays (c.y + 1)
    have d1 := jdn_day c.y 1 4 (by omega) (by omega)
    have d2 := jdn_day c.y 12 28 (by omega) (by omega)
    have y1 : 365 ≤ yearDays (c.y - 1) := by unfold yearDays; split <;> omega
    have y2 : 365 ≤ yearDays (c.y + 1) := by unfold yearDays; split <;> omega
    rw [show c.y - 1 + 1 = c.y by omega] at s2
    unfold weekMonday at *
    by_cases hl : dayNumber c - weekday (dayNumber c) + 3 < dayNumber ⟨c.y, 1, 1⟩
    · have hi : InYear (c.y - 1) (dayNumber c - weekday (dayNumber c) + 3) := by
        unfold InYear at *
        rw [show c.y - 1 + 1 = c.y by omega]
        dsimp only at *
        omega
      have := inYear_unique h1 hi
      unfold InYear at *
      dsimp only at *
      omega
    · have hi : InYear (c.y + 1) (dayNumber c - weekday (dayNumber c) + 3) := by
        unfold InYear at *
        dsimp only at *
        omega
      have := inYear_unique h1 hi
      unfold InYear at *
      dsimp only at *
      omega

/-- 1 January 2023, a Sunday, and 29 December 2025, a Monday. -/
example : TsRange (instant ⟨2023, 1, 1⟩ ⟨5, 0, 0, 0⟩) ∧ (⟨2023, 1, 1⟩ : YMD).Real ∧
    dayNumber ⟨2023, 1, 1⟩ = instant ⟨2023, 1, 1⟩ ⟨5, 0, 0, 0⟩ / dayMicros ∧
    (⟨instant ⟨2023, 1, 1⟩ ⟨5, 0, 0, 0⟩⟩ : Timestamp).datePart .debug .unit .isoYear = .ok (.fin 2022) ∧
    (⟨instant ⟨2025, 12, 29⟩ ⟨5, 0, 0, 0⟩⟩ : Timestamp).datePart .debug .unit .isoYear = .ok (.fin 2026) := by
  decide +kernel

end Props
