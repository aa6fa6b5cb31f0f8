import Verif.Spec.IsoWeek
import Verif.Lemmas.Trunc

namespace Pg
open Spec

/-- Julian day of the Monday of ISO week 1 of year `y`. -/
def isoMon (y : Int) : Int := jdn y 1 4 - jdn y 1 4 % 7

theorem jdn_jan4 (y : Int) : jdn y 1 4 = jdn y 1 1 + 3 := by
  rw [jdn_day y 1 4 (by omega) (by omega)]; omega

theorem jdn_year_len (y : Int) : jdn (y + 1) 1 1 = jdn y 1 1 + 365 ∨ jdn (y + 1) 1 1 = jdn y 1 1 + 366 := by
  rw [jdn_closed _ _ _ (by omega) (by omega), jdn_closed _ _ _ (by omega) (by omega)]
  simp; omega

theorem jdn_jan4_bounds {y : Int} (h : -4713 ≤ y ∧ y ≤ 294278) :
    -1000 ≤ jdn y 1 4 ∧ jdn y 1 4 ≤ 110000000 := by
  rw [jdn_closed _ _ _ (by omega) (by omega)]
  simp; omega

theorem julianToWeekDay_eq (p : Profile) {d : Int} (h : -100000 ≤ d ∧ d ≤ 2147483646) :
    julianToWeekDay p d = .ok ((d + 1) % 7) := by
  unfold julianToWeekDay
  rw [chk32_ok (by omega), Res.bind_ok]
  have := tmod_or (d + 1) 7
  simp only
  split
  · rw [chk32_ok (by omega)]; simp only [Res.ok.injEq]; omega
  · simp only [Res.pure_eq, Res.ok.injEq]; omega

theorem isoWeek1_eq (p : Profile) {y : Int} (h : -4713 ≤ y ∧ y ≤ 294278) :
    isoWeek1 p y = .ok (isoMon y) := by
  have hb := jdn_jan4_bounds h
  unfold isoWeek1 isoMon
  rw [date2julian_eq p y 1 4 (by omega) (by omega) (by omega) (by omega) (by omega) (by omega)
    (by omega), Res.bind_ok, chk32_ok (by omega), Res.bind_ok, julianToWeekDay_eq p (by omega),
    Res.bind_ok, show jdn y 1 4 - 1 + 1 = jdn y 1 4 by omega, chk32_ok (by omega)]

/-- Model of both ISO functions on a supported day: the ISO year and week. -/
theorem iso_spec (p : Profile) {c : YMD} (hc : c.Real) (h0 : 0 ≤ jdn c.y c.m c.d)
    (hy : -4713 ≤ c.y ∧ c.y ≤ 294276) :
    ∃ Y, (Y = c.y - 1 ∨ Y = c.y ∨ Y = c.y + 1) ∧ -4713 ≤ Y ∧
      isoMon Y ≤ jdn c.y c.m c.d ∧ jdn c.y c.m c.d < isoMon (Y + 1) ∧
      dateToIsoYear p c.y c.m c.d = .ok Y ∧
      dateToIsoWeek p c.y c.m c.d = .ok ((jdn c.y c.m c.d - isoMon Y) / 7 + 1) := by
  have hb := real_bounds hc
  have hyb := jdn_year_bounds c.y c.m c.d hc
  have e1 := jdn_year_len c.y
  have e0 := jdn_year_len (c.y - 1)
  have e2 := jdn_year_len (c.y + 1)
  have e3 := jdn_year_len (c.y + 1 + 1)
  rw [show c.y - 1 + 1 = c.y by omega] at e0
  have f0 := jdn_jan4 (c.y - 1)
  have f1 := jdn_jan4 c.y
  have f2 := jdn_jan4 (c.y + 1)
  have f3 := jdn_jan4 (c.y + 1 + 1)
  have m0 : isoMon (c.y - 1) = jdn (c.y - 1) 1 4 - jdn (c.y - 1) 1 4 % 7 := rfl
  have m1 : isoMon c.y = jdn c.y 1 4 - jdn c.y 1 4 % 7 := rfl
  have m2 : isoMon (c.y + 1) = jdn (c.y + 1) 1 4 - jdn (c.y + 1) 1 4 % 7 := rfl
  have m3 : isoMon (c.y + 1 + 1) = jdn (c.y + 1 + 1) 1 4 - jdn (c.y + 1 + 1) 1 4 % 7 := rfl
  have hbig := jdn_jan4_bounds (y := c.y) (by omega)
  have hfirst : c.y = -4713 → jdn c.y 1 4 < -1 := by
    intro h; rw [h]; decide
  unfold dateToIsoYear dateToIsoWeek isoStart
  rw [date2julian_eq p _ _ _ (by omega) (by omega) (by omega) (by omega) (by omega) (by omega)
    (by omega), isoWeek1_eq p (y := c.y) (by omega)]
  simp only [Res.bind_ok]
  by_cases hlt : jdn c.y c.m c.d < isoMon c.y
  · have hyl : -4712 ≤ c.y := by omega
    refine ⟨c.y - 1, by omega, by omega, by omega, ?_, ?_, ?_⟩
    · rw [show c.y - 1 + 1 = c.y by omega]; exact hlt
    · simp only [if_pos hlt]
      rw [chk32_ok (by omega), Res.bind_ok, isoWeek1_eq p (by omega)]
      simp only [Res.bind_ok, Res.pure_eq]
      rw [chk32_ok (by omega), Res.bind_ok, tdiv_nn (by omega), chk32_ok (by omega), Res.bind_ok]
      split
      · rw [chk32_ok (by omega), Res.bind_ok, isoWeek1_eq p (by omega)]
        simp only [Res.bind_ok]
        rw [show c.y - 1 + 1 = c.y by omega, if_neg (by omega)]
      · rfl
    · simp only [if_pos hlt]
      rw [chk32_ok (by omega), Res.bind_ok, isoWeek1_eq p (by omega)]
      simp only [Res.bind_ok, Res.pure_eq]
      rw [chk32_ok (by omega), Res.bind_ok, tdiv_nn (by omega), chk32_ok (by omega), Res.bind_ok]
      split
      · rw [chk32_ok (by omega), Res.bind_ok, isoWeek1_eq p (by omega)]
        simp only [Res.bind_ok]
        rw [if_neg (by omega)]
      · rfl
  · by_cases hge : isoMon (c.y + 1) ≤ jdn c.y c.m c.d
    · refine ⟨c.y + 1, by omega, by omega, by omega, by omega, ?_, ?_⟩
      · simp only [if_neg hlt]
        rw [Res.pure_eq, Res.bind_ok]
        simp only
        rw [chk32_ok (by omega), Res.bind_ok, tdiv_nn (by omega), chk32_ok (by omega), Res.bind_ok,
          if_pos (by omega), chk32_ok (by omega), Res.bind_ok, isoWeek1_eq p (by omega), Res.bind_ok,
          if_pos (by omega)]
        rfl
      · simp only [if_neg hlt]
        rw [Res.pure_eq, Res.bind_ok]
        simp only
        rw [chk32_ok (by omega), Res.bind_ok, tdiv_nn (by omega), chk32_ok (by omega), Res.bind_ok,
          if_pos (by omega), chk32_ok (by omega), Res.bind_ok, isoWeek1_eq p (by omega), Res.bind_ok,
          if_pos (by omega), chk32_ok (by omega), Res.bind_ok, tdiv_nn (by omega), chk32_ok (by omega)]
    · refine ⟨c.y, by omega, by omega, by omega, by omega, ?_, ?_⟩
      · simp only [if_neg hlt]
        rw [Res.pure_eq, Res.bind_ok]
        simp only
        rw [chk32_ok (by omega), Res.bind_ok, tdiv_nn (by omega), chk32_ok (by omega), Res.bind_ok]
        split
        · rw [chk32_ok (by omega), Res.bind_ok, isoWeek1_eq p (by omega), Res.bind_ok,
            if_neg (by omega)]
          rfl
        · rfl
      · simp only [if_neg hlt]
        rw [Res.pure_eq, Res.bind_ok]
        simp only
        rw [chk32_ok (by omega), Res.bind_ok, tdiv_nn (by omega), chk32_ok (by omega), Res.bind_ok]
        split
        · rw [chk32_ok (by omega), Res.bind_ok, isoWeek1_eq p (by omega), Res.bind_ok,
            if_neg (by omega)]
          rfl
        · rfl

/-- `isoMon` brackets say what ISO 8601 says. -/
theorem isoWeekDate_iff {c : YMD} {Y w : Int} (h1 : isoMon Y ≤ jdn c.y c.m c.d)
    (h2 : jdn c.y c.m c.d < isoMon (Y + 1)) (hw : w = (jdn c.y c.m c.d - isoMon Y) / 7 + 1) :
    IsoWeekDate (dayNumber c) Y w (weekday (dayNumber c) + 1) := by
  have f1 := jdn_jan4 Y
  have f2 := jdn_jan4 (Y + 1)
  have e := jdn_year_len Y
  have ec := jdn_eq c
  have m1 : isoMon Y = jdn Y 1 4 - jdn Y 1 4 % 7 := rfl
  have m2 : isoMon (Y + 1) = jdn (Y + 1) 1 4 - jdn (Y + 1) 1 4 % 7 := rfl
  unfold jdn at *
  unfold IsoWeekDate InYear weekMonday weekday
  omega

end Pg
