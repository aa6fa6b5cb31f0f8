import Verif.Model.Calendar
import Verif.Spec.Calendar

/-! # Calendar lemmas: model against specification -/

namespace Pg
open Spec

theorem yearIsLeap_iff (y : Int) : yearIsLeap y = true ↔ Leap y := by
  unfold yearIsLeap Leap
  have h4 : Int.tmod y 4 = 0 ↔ y % 4 = 0 := by rw [tmod_cases]; split <;> omega
  have h100 : Int.tmod y 100 = 0 ↔ y % 100 = 0 := by rw [tmod_cases]; split <;> omega
  have h400 : Int.tmod y 400 = 0 ↔ y % 400 = 0 := by rw [tmod_cases]; split <;> omega
  simp [h4, h100, h400]

theorem daysOfMonth_eq (y m : Int) (h1 : 1 ≤ m) (h2 : m ≤ 12) :
    daysOfMonth y m = .ok (monthDays y m) := by
  have hm : m = 1 ∨ m = 2 ∨ m = 3 ∨ m = 4 ∨ m = 5 ∨ m = 6 ∨ m = 7 ∨ m = 8 ∨ m = 9 ∨ m = 10 ∨
      m = 11 ∨ m = 12 := by omega
  by_cases hl : Leap y
  · have : yearIsLeap y = true := (yearIsLeap_iff y).2 hl
    rcases hm with h|h|h|h|h|h|h|h|h|h|h|h <;> subst h <;>
      simp [daysOfMonth, this, dayTable, monthDays, hl]
  · have : yearIsLeap y = false := by
      cases h : yearIsLeap y
      · rfl
      · exact absurd ((yearIsLeap_iff y).1 h) hl
    rcases hm with h|h|h|h|h|h|h|h|h|h|h|h <;> subst h <;>
      simp [daysOfMonth, this, dayTable, monthDays, hl]

/-- Julian day number of a calendar day, by the specification. -/
def jdn (y m d : Int) : Int := dayNumber ⟨y, m, d⟩ + 2451545

/-- Closed form of the days in the preceding months. -/
theorem daysInMonths_closed (y m : Int) (h1 : 1 ≤ m) (h2 : m ≤ 12) :
    daysInMonths y (m - 1).toNat =
      if m ≤ 2 then 31 * (m - 1)
      else (if Leap y then 1 else 0) + 7834 * (m + 1) / 256 - 63 := by
  have hm : m = 1 ∨ m = 2 ∨ m = 3 ∨ m = 4 ∨ m = 5 ∨ m = 6 ∨ m = 7 ∨ m = 8 ∨ m = 9 ∨ m = 10 ∨
      m = 11 ∨ m = 12 := by omega
  by_cases hl : Leap y <;>
  rcases hm with h|h|h|h|h|h|h|h|h|h|h|h <;> subst h <;>
      simp [daysInMonths, monthDays, hl]


theorem jdn_closed (y m d : Int) (h1 : 1 ≤ m) (h2 : m ≤ 12) :
    jdn y m d = if m > 2 then
        (y + 4800) * 365 - 32167 + ((y + 4800) / 4 - (y + 4800) / 100 + (y + 4800) / 100 / 4) +
          (7834 * (m + 1) / 256 + d)
      else
        (y + 4799) * 365 - 32167 + ((y + 4799) / 4 - (y + 4799) / 100 + (y + 4799) / 100 / 4) +
          (7834 * (m + 13) / 256 + d) := by
  unfold jdn dayNumber
  simp only [daysInMonths_closed y m h1 h2]
  unfold daysBeforeYear
  by_cases hm : m > 2
  · have hm2 : ¬ m ≤ 2 := by omega
    simp only [hm, hm2, if_true, if_false]
    by_cases hl : Leap y
    · simp only [hl, if_true]; unfold Leap at hl; omega
    · simp only [hl, if_false]; unfold Leap at hl; omega
  · have hm2 : m ≤ 2 := by omega
    have : m = 1 ∨ m = 2 := by omega
    simp only [hm, hm2, if_true, if_false]
    rcases this with h | h <;> subst h <;> omega

theorem date2julian_eq (p : Profile) (y m d : Int) (hy1 : -4713 ≤ y) (hy2 : y ≤ 5874898)
    (h1 : 1 ≤ m) (h2 : m ≤ 12) (hd1 : 1 ≤ d) (hd2 : d ≤ 31) (hmax : y = 5874898 → m < 6) :
    date2julian p y m d = .ok (jdn y m d) := by
  rw [jdn_closed y m d h1 h2]
  unfold date2julian
  by_cases hm : m > 2
  · simp only [hm, if_true]
    simp (disch := omega) only [tdiv_nn, chk32_ok, Res.bind_ok, Res.pure_eq]
  · simp only [hm, if_false]
    simp (disch := omega) only [tdiv_nn, chk32_ok, Res.bind_ok, Res.pure_eq]

end Pg
