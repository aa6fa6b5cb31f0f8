import Verif.Props.DateParts
import Verif.Props.NoPanicCalc

/-!
# Truncation to weeks at the end of December (C24)
-/

namespace Props
open Pg Spec

theorem december_of_late {c : YMD} (hc : c.Real) (h : jdn (c.y + 1) 1 1 ≤ jdn c.y c.m c.d + 3) : c.m = 12 := by
  have hb := real_bounds hc
  have hy := jdn_year_step c.y
  by_cases hm : c.m = 12
  · exact hm
  · have s := jdn_month_mono c.y (c.m + 1) (by omega) (12 - (c.m + 1)).toNat (by omega)
    rw [show c.m + 1 + ((12 - (c.m + 1)).toNat : Nat) = 12 by omega] at s
    have st := jdn_month_step c.y c.m (by omega) (by omega)
    have hr := (real_iff c).1 hc
    rw [jdn_day c.y c.m c.d (by omega) (by omega)] at h
    omega

/-- **C24**, weeks, the remaining days. A day at the end of December that belongs to week 1 of the next year is truncated to
the Monday of week 1 of the year before. In the first supported year this is out of range: the call is an error in a release
build and panics in a debug build. -/
theorem C24_week_exact (p : Profile) (t : Timestamp) (h : TsRange t.v) (c : YMD) (hc : c.Real)
    (hd : dayNumber c = t.v / dayMicros) (w d : Int) (hw : IsoWeekDate (dayNumber c) (c.y + 1) w d) :
    (-4713 < c.y → t.truncate p .unit .week = .ok ⟨weekMonday (dayNumber ⟨c.y - 1, 1, 4⟩) * dayMicros⟩) ∧
    (c.y = -4713 → t.truncate .debug .unit .week = .panic ∧ (t.truncate .release .unit .week).IsErr) := by
  obtain ⟨c', hr, hd', hy1, hy2, he⟩ := fields_spec p h
  have hcc : c = c' := dayNumber_inj hc hr (by rw [hd, hd']; rfl)
  subst hcc
  have h' := (tsRange_iff _).1 h
  have ec := jdn_eq c
  have hb := real_bounds hc
  obtain ⟨Y, hY, hYl, b1, b2, -, eq⟩ := iso_spec p hr (by omega) ⟨hy1, hy2⟩
  obtain rfl : Y = c.y + 1 := ((C27_unique _ 0 _ _ _ _ _ _ (isoWeekDate_iff b1 b2 rfl)).2 hw).1.symm
  have hyb := jdn_year_bounds c.y c.m c.d hc
  have f1 := jdn_jan4 (c.y + 1)
  have m1 : isoMon (c.y + 1) = jdn (c.y + 1) 1 4 - jdn (c.y + 1) 1 4 % 7 := rfl
  have hm : c.m = 12 := december_of_late hc (by omega)
  have hwk : (jdn c.y c.m c.d - isoMon (c.y + 1)) / 7 + 1 = 1 := by omega
  rw [hwk] at eq
  constructor
  · intro hlt
    have hlt' : -4711 ≤ c.y := by
      by_cases g : c.y = -4712
      · exfalso
        rw [g] at f1 m1 hyb b1
        have : jdn (-4712 + 1) 1 1 = 404 := by decide
        omega
      · omega
    have f2 := jdn_jan4 (c.y - 1)
    have hbig := jdn_jan4_bounds (y := c.y - 1) (by omega)
    have m2 : isoMon (c.y - 1) = jdn (c.y - 1) 1 4 - jdn (c.y - 1) 1 4 % 7 := rfl
    have hpos : 0 ≤ isoMon (c.y - 1) := by
      have := jdn_closed (c.y - 1) 1 4 (by omega) (by omega)
      simp only [show ¬ ((1 : Int) > 2) by omega, if_false] at this
      omega
    have hyr : weekYear p 1 c.m c.y = .ok (c.y - 1) := by
      unfold weekYear
      rw [if_neg (by omega), if_pos (by omega), chk32_ok (by omega)]
    have e4 := jdn_eq ⟨c.y - 1, 1, 4⟩
    obtain ⟨y', m', d', hj, hjd, hre⟩ := julian2date_spec p (isoMon (c.y - 1)) (by omega) (by omega)
    have ht : truncTimestampWeek p (tmOf c (clockOf t.v), (clockOf t.v).us) = .ok (tmOf ⟨y', m', d'⟩ ⟨0, 0, 0, 0⟩, 0) := by
      unfold truncTimestampWeek
      simp only [tmOf, eq, Res.bind_ok, hyr]
      unfold isoWeekToDate isoWeekToJulian
      simp only [isoWeek1_eq p (y := c.y - 1) (by omega), Res.bind_ok]
      rw [chk32_ok (by omega), Res.bind_ok, chk32_ok (by omega), Res.bind_ok, chk32_ok (by omega), Res.bind_ok,
        show (1 - 1 : Int) * 7 + isoMon (c.y - 1) = isoMon (c.y - 1) by omega, hj]
      rfl
    have e5 := jdn_eq ⟨y', m', d'⟩
    simp only at e4 e5
    have hin : instant ⟨y', m', d'⟩ ⟨0, 0, 0, 0⟩ = weekMonday (dayNumber ⟨c.y - 1, 1, 4⟩) * dayMicros := by
      unfold instant
      rw [show (⟨0, 0, 0, 0⟩ : Clock).micros = 0 from by decide,
        show dayNumber ⟨y', m', d'⟩ = weekMonday (dayNumber ⟨c.y - 1, 1, 4⟩) by unfold weekMonday weekday; omega]
      omega
    have hg : TsRange (instant ⟨y', m', d'⟩ ⟨0, 0, 0, 0⟩) := by
      have e6 := jdn_year_len (c.y - 1)
      rw [show c.y - 1 + 1 = c.y by omega] at e6
      rw [tsRange_iff, hin]
      unfold weekMonday weekday dayMicros
      omega
    have hcl : (⟨0, 0, 0, 0⟩ : Clock).Real := by decide
    have htt := (toTimestamp_real p (tmOf ⟨y', m', d'⟩ ⟨0, 0, 0, 0⟩) 0 hre hcl).1 hg
    unfold Timestamp.truncate
    simp only [he, Res.bind_ok, Timestamp.truncUnit, ht, htt]
    rw [← hin]
    rfl
  · intro hy
    rw [hy] at f1 m1 hyb b1 ec
    have j1 : jdn (-4713 + 1) 1 1 = 38 := by decide
    have hday : t.v / 86400000000 = -2451510 ∨ t.v / 86400000000 = -2451509 ∨ t.v / 86400000000 = -2451508 := by omega
    have same : ∀ n : Int, -2451545 ≤ n → n ≤ 0 → t.v / 86400000000 = n →
        ∀ q, t.truncate q .unit .week = (⟨n * 86400000000⟩ : Timestamp).truncate q .unit .week := by
      intro n n1 n2 e q
      exact truncWeek_same_day q h (by rw [tsRange_iff]; simp only; omega) (by simp only; omega)
    rcases hday with e | e | e <;> rw [same _ (by decide) (by decide) e, same _ (by decide) (by decide) e] <;>
      exact ⟨by decide +kernel, ⟨.invalid, by decide +kernel⟩⟩

/-- Witness: Tuesday 2019-12-31 is in week 1 of 2020 and is truncated to the Monday of week 1 of 2018; the last day of the
first supported year. -/
example : (⟨2019, 12, 31⟩ : YMD).Real ∧ weekday (dayNumber ⟨2019, 12, 31⟩) + 1 = 2 ∧
    weekMonday (dayNumber ⟨2019, 12, 31⟩) = weekMonday (dayNumber ⟨2020, 1, 4⟩) ∧
    weekMonday (dayNumber ⟨2018, 1, 4⟩) = dayNumber ⟨2018, 1, 1⟩ ∧
    (⟨instant ⟨2019, 12, 31⟩ ⟨8, 0, 0, 0⟩⟩ : Timestamp).truncate .debug .unit .week = .ok ⟨instant ⟨2018, 1, 1⟩ ⟨0, 0, 0, 0⟩⟩ ∧
    TsRange (instant ⟨-4713, 12, 31⟩ ⟨8, 0, 0, 0⟩) ∧
    (⟨instant ⟨-4713, 12, 31⟩ ⟨8, 0, 0, 0⟩⟩ : Timestamp).truncate .debug .unit .week = .panic := by
  decide +kernel

end Props
