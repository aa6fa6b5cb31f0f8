import Verif.Spec.Units
import Verif.Lemmas.TsArith

namespace Pg
open Spec

/-- The truncated day and clock for every unit except weeks. -/
def truncDayOf : DateUnit → YMD → YMD
  | .month, c => ⟨c.y, c.m, 1⟩
  | .quarter, c => ⟨c.y, 3 * ((c.m - 1) / 3) + 1, 1⟩
  | .year, c => ⟨c.y, 1, 1⟩
  | .decade, c => ⟨c.y / 10 * 10, 1, 1⟩
  | .century, c => ⟨(c.y - 1) / 100 * 100 + 1, 1, 1⟩
  | .millennium, c => ⟨(c.y - 1) / 1000 * 1000 + 1, 1, 1⟩
  | _, c => c

/-- See `truncDayOf`. -/
def truncClockOf : DateUnit → Clock → Clock
  | .microsec, t => t
  | .millisec, t => ⟨t.h, t.mi, t.s, t.us / 1000 * 1000⟩
  | .second, t => ⟨t.h, t.mi, t.s, 0⟩
  | .minute, t => ⟨t.h, t.mi, 0, 0⟩
  | .hour, t => ⟨t.h, 0, 0, 0⟩
  | _, _ => ⟨0, 0, 0, 0⟩

theorem decadeStart_eq (p : Profile) {y : Int} (h : -5000 ≤ y ∧ y ≤ 300000) :
    decadeStart p y = .ok (y / 10 * 10) := by
  unfold decadeStart
  split
  · rw [tdiv_nn (by omega)]
  · simp (disch := omega) only [tdiv_nn, chk32_ok, Res.bind_ok]
    simp only [Res.ok.injEq]; omega

theorem centuryStart_eq (p : Profile) {y : Int} (h : -5000 ≤ y ∧ y ≤ 300000) :
    centuryStart p y = .ok ((y - 1) / 100 * 100 + 1) := by
  unfold centuryStart
  split
  · simp (disch := omega) only [tdiv_nn, chk32_ok, Res.bind_ok]
    simp only [Res.ok.injEq]; omega
  · simp (disch := omega) only [tdiv_nn, chk32_ok, Res.bind_ok]
    simp only [Res.ok.injEq]; omega

theorem millenniumStart_eq (p : Profile) {y : Int} (h : -5000 ≤ y ∧ y ≤ 300000) :
    millenniumStart p y = .ok ((y - 1) / 1000 * 1000 + 1) := by
  unfold millenniumStart
  split
  · simp (disch := omega) only [tdiv_nn, chk32_ok, Res.bind_ok]
    simp only [Res.ok.injEq]; omega
  · simp (disch := omega) only [tdiv_nn, chk32_ok, Res.bind_ok]
    simp only [Res.ok.injEq]; omega

theorem truncUnit_eq (p : Profile) {u : DateUnit} (hu : TruncUnit u) {c : YMD} {t : Clock}
    (hc : c.Real) (ht : t.Real) (hy : -4713 ≤ c.y ∧ c.y ≤ 294276) :
    Timestamp.truncUnit p (tmOf c t, t.us) u =
      .ok (tmOf (truncDayOf u c) (truncClockOf u t), (truncClockOf u t).us) := by
  have hb := real_bounds hc
  unfold Clock.Real at ht
  unfold TruncUnit at hu
  simp only [List.mem_cons, List.not_mem_nil, or_false] at hu
  rcases hu with h | h | h | h | h | h | h | h | h | h | h | h <;> subst h <;>
    simp only [Timestamp.truncUnit, truncTimestampMillennium, truncTimestampCentury,
      truncTimestampDecade, truncTimestampYear, truncTimestampQuarter, truncTimestampMonth, truncDay,
      truncHour, truncMinute, truncSec, truncMilliSec, truncMicroSec, truncDayOf, truncClockOf, tmOf]
  · rw [tdiv_nn (by omega)]
  · rfl
  · rfl
  · rfl
  · rfl
  · rfl
  · rw [chk32_ok (by omega), Res.bind_ok, tdiv_nn (by omega), chk32_ok (by omega)]; rfl
  · rfl
  · rw [decadeStart_eq p (by omega)]; rfl
  · rw [centuryStart_eq p (by omega)]; rfl
  · rw [millenniumStart_eq p (by omega), Res.bind_ok, centuryStart_eq p (by omega)]
    simp only [show ((c.y - 1) / 1000 * 1000 + 1 - 1) / 100 * 100 + 1 = (c.y - 1) / 1000 * 1000 + 1
      by omega]
    rfl

theorem truncDayOf_real {u : DateUnit} {c : YMD} (hc : c.Real) : (truncDayOf u c).Real := by
  have hb := real_bounds hc
  unfold truncDayOf
  split
  all_goals first
    | exact hc
    | (rw [real_iff]
       simp only
       have hm := monthDays_bounds c.y c.m
       have hm2 := monthDays_bounds c.y (3 * ((c.m - 1) / 3) + 1)
       have hm3 := monthDays_bounds c.y 1
       have hm4 := monthDays_bounds (c.y / 10 * 10) 1
       have hm5 := monthDays_bounds ((c.y - 1) / 100 * 100 + 1) 1
       have hm6 := monthDays_bounds ((c.y - 1) / 1000 * 1000 + 1) 1
       omega)

theorem truncClockOf_real {u : DateUnit} {t : Clock} (ht : t.Real) : (truncClockOf u t).Real := by
  unfold Clock.Real at *
  unfold truncClockOf
  split <;> first | omega | (simp only; omega)

theorem instant_le_iff {c c' : YMD} {t t' : Clock} (hc : c.Real) (hc' : c'.Real) (ht : t.Real)
    (ht' : t'.Real) : instant c t ≤ instant c' t' ↔
      c.y < c'.y ∨ (c.y = c'.y ∧ (c.m < c'.m ∨ (c.m = c'.m ∧ (c.d < c'.d ∨ (c.d = c'.d ∧
        t.micros ≤ t'.micros))))) := by
  have d1 := dayNumber_lt_iff hc hc'
  have d2 := dayNumber_lt_iff hc' hc
  have b1 : 0 ≤ t.micros ∧ t.micros < 86400000000 := by
    unfold Clock.Real at ht; unfold Clock.micros; omega
  have b2 : 0 ≤ t'.micros ∧ t'.micros < 86400000000 := by
    unfold Clock.Real at ht'; unfold Clock.micros; omega
  unfold instant dayMicros
  unfold YMD.lt at d1 d2
  generalize t.micros = k at *
  generalize t'.micros = k' at *
  by_cases h1 : dayNumber c < dayNumber c'
  · have := d1.1 h1
    constructor
    · intro _; omega
    · intro _; omega
  · by_cases h2 : dayNumber c' < dayNumber c
    · have := d2.1 h2
      constructor
      · intro _; omega
      · intro _; omega
    · have e := dayNumber_inj hc hc' (by omega)
      subst e
      constructor
      · intro _; omega
      · intro _; omega

theorem truncOf_floor {u : DateUnit} (hu : TruncUnit u) {c : YMD} {t : Clock} (hc : c.Real)
    (ht : t.Real) :
    UnitFloor u (instant c t) (instant (truncDayOf u c) (truncClockOf u t)) := by
  have hr := truncDayOf_real (u := u) hc
  have hk := truncClockOf_real (u := u) ht
  have hb := real_bounds hc
  have htr := ht
  unfold Clock.Real at htr
  refine ⟨⟨_, _, hr, hk, rfl, ?_⟩, ?_, ?_⟩
  · unfold TruncUnit at hu
    simp only [List.mem_cons, List.not_mem_nil, or_false] at hu
    rcases hu with h | h | h | h | h | h | h | h | h | h | h | h <;> subst h <;>
      simp [UnitStart, truncDayOf, truncClockOf, Clock.Midnight] <;> omega
  · rw [instant_le_iff hr hc hk ht]
    unfold TruncUnit at hu
    simp only [List.mem_cons, List.not_mem_nil, or_false] at hu
    rcases hu with h | h | h | h | h | h | h | h | h | h | h | h <;> subst h <;>
      simp only [truncDayOf, truncClockOf, Clock.micros, true_and, Int.lt_irrefl, false_or] <;> omega
  · rintro s ⟨c2, t2, r2, k2, rfl, hs⟩ hle
    rw [instant_le_iff r2 hc k2 ht] at hle
    rw [instant_le_iff r2 hr k2 hk]
    have hb2 := real_bounds r2
    have kr2 := k2
    unfold Clock.Real at kr2
    unfold TruncUnit at hu
    simp only [List.mem_cons, List.not_mem_nil, or_false] at hu
    rcases hu with h | h | h | h | h | h | h | h | h | h | h | h <;> subst h <;>
      simp only [UnitStart, Clock.Midnight, truncDayOf, truncClockOf, Clock.micros] at * <;> omega

end Pg
