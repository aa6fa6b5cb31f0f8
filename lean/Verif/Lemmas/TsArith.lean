import Verif.Lemmas.JulianWide

namespace Pg
open Spec

theorem dayNumber_lower (c : YMD) (h : c.Real) (hy : c.y < -4714) : dayNumber c < -2451545 := by
  have hb := real_bounds h
  have e := jdn_eq c
  rw [jdn_closed _ _ _ hb.1 hb.2.1] at e
  split at e <;> omega

theorem dayNumber_upper (c : YMD) (h : c.Real) (hy : 294276 < c.y) : 106751983 ≤ dayNumber c := by
  have hb := real_bounds h
  have e := jdn_eq c
  rw [jdn_closed _ _ _ hb.1 hb.2.1] at e
  split at e <;> omega

/-- `PgTime` fields of a valid timestamp as calendar day and clock. -/
theorem fields_spec (p : Profile) {t : Int} (h : TsRange t) :
    ∃ c : YMD, c.Real ∧ dayNumber c = t / 86400000000 ∧ -4713 ≤ c.y ∧ c.y ≤ 294276 ∧
      timestamp2time p t = .ok (tmOf c (clockOf t), (clockOf t).us) := by
  have h' := (tsRange_iff _).1 h
  obtain ⟨c, hr, hn, he⟩ := timestamp2time_spec p t (by omega) (by omega)
  have hb := real_bounds hr
  have hv := isValidJulian_of_range hr (by omega) (by omega)
  rw [isValidJulian_iff] at hv
  refine ⟨c, hr, hn, by omega, ?_, he⟩
  by_cases hy : 294276 < c.y
  · have := dayNumber_upper c hr hy; omega
  · omega

theorem normMonth_eq (p : Profile) (y m n : Int) (hy : -4713 ≤ y ∧ y ≤ 294276)
    (hm : 1 ≤ m ∧ m ≤ 12) (hn : In32 n) :
    ∃ y' m', Timestamp.normMonth p y (wrap32 (m + n)) = .ok (y', m') ∧ 1 ≤ m' ∧ m' ≤ 12 ∧
      -178961684 ≤ y' ∧ y' ≤ 179251247 ∧
      ((y' = (y * 12 + (m - 1) + n) / 12 ∧ m' = (y * 12 + (m - 1) + n) % 12 + 1) ∨
       (178951000 ≤ (y * 12 + (m - 1) + n) / 12 ∧ y' ≤ -178600000)) := by
  unfold In32 at hn
  have hw : (m + n ≤ 2147483647 ∧ wrap32 (m + n) = m + n) ∨
      (m + n > 2147483647 ∧ wrap32 (m + n) = m + n - 4294967296) := by
    unfold wrap32; omega
  generalize wrap32 (m + n) = w at *
  unfold Timestamp.normMonth
  by_cases h1 : w > 12
  · simp (disch := omega) only [if_pos h1, tdiv_nn, tmod_nn, chk32_ok, Res.bind_ok, Res.pure_eq,
      wrap32_of_in]
    refine ⟨_, _, rfl, ?_⟩
    omega
  · by_cases h2 : w < 1
    · simp (disch := omega) only [if_neg h1, if_pos h2, tdiv_np, tmod_np, chk32_ok, Res.bind_ok,
        Res.pure_eq, wrap32_of_in]
      refine ⟨_, _, rfl, ?_⟩
      omega
    · simp only [if_neg h1, if_neg h2]
      refine ⟨_, _, rfl, ?_⟩
      omega

theorem addMonths_real {c : YMD} (h : c.Real) (n : Int) : (c.addMonths n).Real := by
  obtain ⟨-, -, h3, -⟩ := h
  have hb := monthDays_bounds ((c.y * 12 + (c.m - 1) + n) / 12) ((c.y * 12 + (c.m - 1) + n) % 12 + 1)
  rw [real_iff]
  unfold YMD.addMonths
  simp only
  split <;> omega

/-- The month step of `add_interval`. -/
theorem addMonths_spec (p : Profile) {t n : Int} (h : TsRange t) (hn : In32 n) :
    ∃ c : YMD, c.Real ∧ dayNumber c = t / 86400000000 ∧
      (TsRange (instant (c.addMonths n) (clockOf t)) →
        Timestamp.addMonths p t n = .ok (instant (c.addMonths n) (clockOf t))) ∧
      (¬ TsRange (instant (c.addMonths n) (clockOf t)) → (Timestamp.addMonths p t n).IsErr) := by
  obtain ⟨c, hr, hd, hy1, hy2, he⟩ := fields_spec p h
  refine ⟨c, hr, hd, ?_⟩
  have hb := real_bounds hr
  obtain ⟨y', m', e, m1, m2, y1, y2, hcase⟩ := normMonth_eq p c.y c.m n ⟨hy1, hy2⟩ ⟨hb.1, hb.2.1⟩ hn
  have hadd := addMonths_real hr n
  have hcl := clockOf_real t
  have hmic := clockOf_micros t
  unfold Timestamp.addMonths
  rw [he]
  simp only [Res.bind_ok, tmOf, e, daysOfMonth_eq _ _ m1 m2]
  have hmd := monthDays_bounds y' m'
  rcases hcase with ⟨rfl, rfl⟩ | ⟨k1, k2⟩
  · have hc : (⟨(c.y * 12 + (c.m - 1) + n) / 12, (c.y * 12 + (c.m - 1) + n) % 12 + 1,
        if c.d > monthDays ((c.y * 12 + (c.m - 1) + n) / 12) ((c.y * 12 + (c.m - 1) + n) % 12 + 1) then
          monthDays ((c.y * 12 + (c.m - 1) + n) / 12) ((c.y * 12 + (c.m - 1) + n) % 12 + 1) else c.d⟩ : YMD)
          = c.addMonths n := by
      unfold YMD.addMonths
      simp only [YMD.mk.injEq, true_and]
      split <;> split <;> omega
    have := toTimestamp_real p { tmOf c (clockOf t) with
        year := (c.y * 12 + (c.m - 1) + n) / 12, mon := (c.y * 12 + (c.m - 1) + n) % 12 + 1,
        mday := if c.d > monthDays ((c.y * 12 + (c.m - 1) + n) / 12) ((c.y * 12 + (c.m - 1) + n) % 12 + 1) then
          monthDays ((c.y * 12 + (c.m - 1) + n) / 12) ((c.y * 12 + (c.m - 1) + n) % 12 + 1) else c.d }
        (clockOf t).us (by simp only; rw [hc]; exact hadd) hcl
    simp only [tmOf] at this
    rw [hc] at this
    exact this
  · have hnot : ¬ TsRange (instant (c.addMonths n) (clockOf t)) := by
      have := dayNumber_upper _ hadd (by unfold YMD.addMonths; simp only; omega)
      rw [tsRange_iff]; unfold instant dayMicros; omega
    refine ⟨fun h => absurd h hnot, fun _ => ?_⟩
    unfold PgTime.toTimestamp
    rw [if_pos (by simp only [isValidJulian_iff]; omega)]
    exact ⟨_, rfl⟩

/-- The day step of `add_interval`, outside the window of days in which `julian2date` misbehaves.
`k` is the number of days from the first supported day to the target day. -/
theorem addDays_spec (p : Profile) {t n : Int} (h : TsRange t) (hn : In32 n)
    (hk : (p = .debug → ¬ (-120296 ≤ t / 86400000000 + n + 2451545 ∧ t / 86400000000 + n + 2451545 ≤ -1)) ∧
      (p = .release → ¬ (-120296 ≤ t / 86400000000 + n + 2451545 ∧ t / 86400000000 + n + 2451545 ≤ -32045))) :
    (TsRange (t + n * 86400000000) → Timestamp.addDays p t n = .ok (t + n * 86400000000)) ∧
    (¬ TsRange (t + n * 86400000000) → (Timestamp.addDays p t n).IsErr) := by
  obtain ⟨c, hr, hd, hy1, hy2, he⟩ := fields_spec p h
  have hb := real_bounds hr
  have hcl := clockOf_real t
  have hmic := clockOf_micros t
  have h' := (tsRange_iff _).1 h
  have ej := jdn_eq c
  unfold In32 at hn
  have hw : julian2date p (wrap32 (jdn c.y c.m c.d + n)) = .ok (j2dCore (jdn c.y c.m c.d + n)) ∨
      (jdn c.y c.m c.d + n < -120296 ∧ julian2date p (wrap32 (jdn c.y c.m c.d + n)) =
        .ok (j2dCore (jdn c.y c.m c.d + n + 4294967296))) := by
    by_cases h0 : 0 ≤ jdn c.y c.m c.d + n
    · left; exact julian2date_wide p _ _ (by unfold wrapU32 wrap32; omega) h0 (by omega)
    · by_cases h1 : jdn c.y c.m c.d + n < -120296
      · right; exact ⟨h1, julian2date_wide p _ _ (by unfold wrapU32 wrap32; omega) (by omega) (by omega)⟩
      · left
        cases p
        · exact absurd (hk.1 rfl) (by omega)
        · rw [wrap32_of_in (by omega)]
          have := hk.2 rfl
          exact julian2date_neg _ (by omega) (by omega)
  unfold Timestamp.addDays
  rw [he]
  simp only [Res.bind_ok, tmOf]
  rw [date2julian_eq p _ _ _ (by omega) (by omega) (by omega) (by omega) (by omega) (by omega)
      (by omega)]
  simp only [Res.bind_ok]
  rcases hw with hw | ⟨hlt, hw⟩
  · obtain ⟨k1, k2⟩ := j2dCore_spec (jdn c.y c.m c.d + n)
    rw [hw]
    simp only [Res.bind_ok]
    generalize j2dCore (jdn c.y c.m c.d + n) = c' at *
    have := toTimestamp_real p ((tmOf c (clockOf t)).setYmd c') (clockOf t).us k2 hcl
    have ei : instant ⟨c'.1, c'.2.1, c'.2.2⟩ (clockOf t) = t + n * 86400000000 := by
      unfold instant dayMicros
      rw [hmic]
      unfold jdn at k1 ej; omega
    simp only [PgTime.setYmd, tmOf] at this
    rw [show (⟨(clockOf t).h, (clockOf t).mi, (clockOf t).s, (clockOf t).us⟩ : Clock) = clockOf t
      from rfl, ei] at this
    exact this
  · obtain ⟨k1, k2⟩ := j2dCore_spec (jdn c.y c.m c.d + n + 4294967296)
    rw [hw]
    simp only [Res.bind_ok]
    generalize j2dCore (jdn c.y c.m c.d + n + 4294967296) = c' at *
    have := toTimestamp_real p ((tmOf c (clockOf t)).setYmd c') (clockOf t).us k2 hcl
    refine ⟨fun hx => absurd ((tsRange_iff _).1 hx) (by omega), fun _ => this.2 ?_⟩
    simp only [PgTime.setYmd, tmOf]
    rw [tsRange_iff]
    unfold instant dayMicros
    rw [show (⟨(clockOf t).h, (clockOf t).mi, (clockOf t).s, (clockOf t).us⟩ : Clock) = clockOf t
      from rfl, hmic]
    unfold jdn at k1 ej; omega

end Pg
