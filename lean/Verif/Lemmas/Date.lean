import Verif.Lemmas.Timestamp

namespace Pg
open Spec

theorem dayNumber_lt_iff {a b : YMD} (ha : a.Real) (hb : b.Real) :
    dayNumber a < dayNumber b ↔ a.lt b := by
  have ea := jdn_eq a
  have eb := jdn_eq b
  constructor
  · intro h; exact lt_of_jdn_lt ha hb (by omega)
  · intro h; have := jdn_lt_of_lt ha hb h; omega

theorem dayNumber_inj {a b : YMD} (ha : a.Real) (hb : b.Real) (h : dayNumber a = dayNumber b) :
    a = b := by
  have ea := jdn_eq a
  have eb := jdn_eq b
  obtain ⟨h1, h2, h3⟩ := jdn_inj (y := a.y) (m := a.m) (d := a.d) (y' := b.y) (m' := b.m)
    (d' := b.d) ha hb (by omega)
  cases a; cases b; simp_all

theorem inDateRange_iff {c : YMD} (h : c.Real) : c.InDateRange ↔ DateRange (dayNumber c) := by
  unfold YMD.InDateRange DateRange
  rw [← dayNumber_lt_iff h (by decide), ← dayNumber_lt_iff (by decide) h]
  omega

theorem inTsRange_iff {c : YMD} (h : c.Real) :
    c.InTsRange ↔ (-2451545 ≤ dayNumber c ∧ dayNumber c < 106751983) := by
  have h1 : dayNumber firstDay = -2451545 := by decide
  have h2 : dayNumber lastTsDay = 106751982 := by decide
  unfold YMD.InTsRange
  rw [← dayNumber_lt_iff h (by decide), ← dayNumber_lt_iff (by decide) h]
  omega

theorem real_iff (c : YMD) : c.Real ↔
    (1 ≤ c.m ∧ c.m ≤ 12) ∧ (1 ≤ c.d ∧ c.d ≤ monthDays c.y c.m) := by
  unfold YMD.Real; omega

theorem apiDate_iff (y m d : Int) : ApiDate y m d ↔
    y ≠ 0 ∧ (⟨apiYear y, m, d⟩ : YMD).Real ∧ (⟨apiYear y, m, d⟩ : YMD).InDateRange := Iff.rfl

theorem validateMonthDay_date (tm : PgTime) :
    tm.validateMonthDay 14 =
      if (⟨tm.year, tm.mon, tm.mday⟩ : YMD).Real then .ok tm else .err .overflow := by
  unfold PgTime.validateMonthDay
  have b1 : hasBits 14 2 = true := by decide
  have b2 : hasBits 14 8 = true := by decide
  simp only [b1, b2, Bool.true_and, show (14 : Nat) &&& 14 = 14 from by decide, if_true]
  by_cases hm : 1 ≤ tm.mon ∧ tm.mon ≤ 12
  · rw [if_neg (by simp; omega)]
    have hb := monthDays_bounds tm.year tm.mon
    by_cases hd : 1 ≤ tm.mday ∧ tm.mday ≤ 31
    · rw [if_neg (by simp; omega), daysOfMonth_eq _ _ hm.1 hm.2]
      simp only [Res.bind_ok]
      split
      · rw [if_neg (by rw [real_iff]; simp only; omega)]
      · rw [if_pos (by rw [real_iff]; simp only; omega)]
    · rw [if_pos (by simp; omega), if_neg (by rw [real_iff]; simp only; omega)]
  · rw [if_pos (by simp; omega), if_neg (by rw [real_iff]; simp only; omega)]

theorem validateDoy_date (p : Profile) (tm : PgTime) : tm.validateDoy p 14 = .ok tm := by
  unfold PgTime.validateDoy
  rw [if_neg (by decide)]

/-- `validate_date` on a full date that is not a Julian day or two-digit year. -/
theorem validateDate_date (p : Profile) (tm : PgTime) (bc : Bool) (hy : In32 tm.year) :
    tm.validateDate p 14 false false bc =
      if 0 < tm.year ∧ (⟨if bc then 1 - tm.year else tm.year, tm.mon, tm.mday⟩ : YMD).Real then
        .ok { tm with year := if bc then 1 - tm.year else tm.year }
      else .err .overflow := by
  unfold PgTime.validateDate PgTime.validateYear
  have b1 : hasBits 14 4 = true := by decide
  simp only [b1, if_true]
  unfold In32 at hy
  cases bc
  · simp only [Bool.false_eq_true, if_false]
    by_cases h : tm.year ≤ 0
    · rw [if_pos h, if_neg (by omega)]; rfl
    · rw [if_neg h]
      simp only [Res.bind_ok, validateDoy_date, validateMonthDay_date]
      simp only [show (0 < tm.year) from by omega, true_and]
  · simp only [Bool.false_eq_true, if_false, if_true]
    by_cases h : tm.year ≤ 0
    · rw [if_pos h, if_neg (by omega)]; rfl
    · rw [if_neg h]
      simp (disch := omega) only [chk32_ok, Res.bind_ok, Res.pure_eq, validateDoy_date,
        validateMonthDay_date]
      simp only [show (0 < tm.year) from by omega, true_and,
        show -(tm.year - 1) = 1 - tm.year from by omega]

/-- The part of `try_from_ymd` after validation. -/
theorem date_tail (p : Profile) (c : YMD) (h : c.Real) :
    (if ¬ isValidJulian c.y c.m then Res.err .overflow
     else do
      let j ← date2julian p c.y c.m c.d
      let date ← chk32 p (j - 2451545)
      if Date.isValidDate date then Res.ok (⟨date⟩ : Date) else .err .overflow) =
    if DateRange (dayNumber c) then .ok ⟨dayNumber c⟩ else .err .overflow := by
  have hb := real_bounds h
  by_cases hv : isValidJulian c.y c.m = true
  · rw [if_neg (by simpa using hv)]
    have hi := instant_bounds (y := c.y) (m := c.m) (d := c.d) ⟨hb.1, hb.2.1⟩ hb.2.2 hv
    have hv' := (isValidJulian_iff _ _).1 hv
    rw [date2julian_eq p _ _ _ (by omega) (by omega) (by omega) (by omega) (by omega) (by omega)
      (by omega)]
    have e := jdn_eq c
    simp only [Res.bind_ok]
    rw [chk32_ok (by omega)]
    simp only [Res.bind_ok, isValidDate_iff]
    rw [e, show dayNumber c + 2451545 - 2451545 = dayNumber c by omega]
  · rw [if_pos (by simpa using hv), if_neg]
    intro hr
    rw [dateRange_iff] at hr
    exact hv (isValidJulian_of_range h hr.1 hr.2)

/-- Complete behaviour of `Date::try_from_ymd`, except for `y = i32::MIN` in debug builds. -/
theorem tryFromYmd_eq (p : Profile) (y m d : Int) (hy : In32 y)
    (hmin : y ≠ -2147483648 ∨ p = .release) :
    Date.tryFromYmd p y m d =
      if ApiDate y m d then .ok ⟨dayNumber ⟨apiYear y, m, d⟩⟩ else .err .overflow := by
  unfold Date.tryFromYmd Date.absYear
  unfold In32 at hy
  by_cases h : y = -2147483648
  · subst h
    obtain h | h := hmin
    · exact absurd rfl h
    · subst h
      rw [if_neg (c := ApiDate _ _ _)]
      · simp only [show chk32 .release (-(-2147483648)) = .ok (-2147483648) from by decide,
          show ((-2147483648 : Int) < 0) from by omega, if_true, Res.bind_ok, decide_true]
        rw [validateDate_date _ _ _ (by unfold In32; simp only; omega),
          if_neg (by simp only; omega)]
        rfl
      · rw [apiDate_iff]
        intro ⟨_, h2, h3⟩
        have := h3.1
        unfold YMD.lt firstDay apiYear at this
        simp only at this
        omega
  · have habs : (if y < 0 then chk32 p (-y) else Res.ok y) = .ok (if y < 0 then -y else y) := by
      split
      · rw [chk32_ok (by omega)]
      · rfl
    rw [habs]
    simp only [Res.bind_ok]
    rw [validateDate_date _ _ _ (by unfold In32; simp only; split <;> omega)]
    simp only
    have hyear : (if decide (y < 0) = true then 1 - (if y < 0 then -y else y)
        else if y < 0 then -y else y) = apiYear y := by
      unfold apiYear; simp only [decide_eq_true_eq]; split <;> omega
    rw [hyear]
    by_cases hr : (⟨apiYear y, m, d⟩ : YMD).Real
    · by_cases h0 : y = 0
      · subst h0
        rw [if_neg (by simp), if_neg (by simp [apiDate_iff])]; rfl
      · rw [if_pos (by refine ⟨?_, hr⟩; split <;> omega)]
        simp only [Res.bind_ok]
        have ht := date_tail p ⟨apiYear y, m, d⟩ hr
        simp only at ht
        rw [ht]
        simp only [apiDate_iff, hr, true_and, inDateRange_iff hr, ne_eq, h0, not_false_eq_true]
    · rw [if_neg (by simp [hr]), if_neg (by simp [hr, apiDate_iff])]; rfl

end Pg
