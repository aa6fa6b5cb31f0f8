import Verif.Props.TimestampArith
import Verif.Props.NoPanicCalc

/-! # `julian2date` where its sum wraps around -/

namespace Pg
open Spec Props

/-- The second half of `julian2date`, from the corrected day number `s`. -/
def j2dTail (s : Int) : Int × Int × Int :=
  let q4 := s / 1461
  let t := s % 1461
  let y0 := t * 4 / 1461
  let k := if y0 ≠ 0 then (t + 305) % 365 + 123 else (t + 306) % 366 + 123
  let mq := k * 2141 / 65536
  (y0 + q4 * 4 - 4800, (mq + 10) % 12 + 1, k - 7834 * mq / 256)

/-- The corrected day number after wrapping around. -/
def wrapSum (jd : Int) : Int :=
  jd + 120298 - (if jd < -39734 then 3 - ((jd + 185831) * 4 + 3) / 146097 else 0)

theorem chkU32_wrap {x : Int} (h : 4294967296 ≤ x ∧ x < 8589934592) :
    chkU32 .release x = .ok (x - 4294967296) := by
  unfold chkU32
  rw [if_neg (by unfold InU32; omega)]
  simp only [Res.ok.injEq]; unfold wrapU32; omega

theorem julian2date_wrapped (jd : Int) (h : -120296 ≤ jd ∧ jd ≤ -32045) :
    julian2date .release jd = .ok (j2dTail (wrapSum jd)) := by
  have hu : wrapU32 jd = jd + 4294967296 := by unfold wrapU32; omega
  unfold julian2date j2dTail
  have hs : 0 ≤ wrapSum jd ∧ wrapSum jd ≤ 88253 := by
    unfold wrapSum; split <;> omega
  have e : jd + 4294967296 + 32044 + (60 + (jd + 4294967296 + 32044) / 146097 * 3 +
      ((jd + 4294967296 + 32044 - (jd + 4294967296 + 32044) / 146097 * 146097) * 4 + 3) / 146097) - 4294967296 = wrapSum jd := by
    unfold wrapSum
    split
    · have h1 : (jd + 4294967296 + 32044) / 146097 = 29397 := by omega
      rw [h1]; omega
    · have h1 : (jd + 4294967296 + 32044) / 146097 = 29398 := by omega
      rw [h1]; omega
  rw [hu, chkU32_ok (by omega), Res.bind_ok]
  dsimp only
  rw [chkU32_ok (by omega), Res.bind_ok, chkU32_ok (by omega), Res.bind_ok, chkU32_ok (by omega), Res.bind_ok,
      chkU32_ok (by omega), Res.bind_ok, chkU32_ok (by omega), Res.bind_ok, chkU32_ok (by omega), Res.bind_ok,
      chkU32_ok (by omega), Res.bind_ok, chkU32_wrap (by omega), Res.bind_ok, e]
  generalize wrapSum jd = s at hs
  simp (disch := omega) only [wrap32_of_in, chkU32_ok, chk32_ok, Res.bind_ok, Res.pure_eq]
  simp only [sub_div_mul]
  split <;> rfl

/-- The day of the tail by its year from March. -/
theorem j2dTail_year (s y0 q4 t k mq y m d : Int) (hs : 0 ≤ s ∧ s ≤ 88253)
    (hq : q4 = s / 1461) (ht : t = s % 1461) (hy0 : y0 = t * 4 / 1461)
    (hk : k = if y0 ≠ 0 then (t + 305) % 365 + 123 else (t + 306) % 366 + 123)
    (hmq : mq = k * 2141 / 65536) (hy : y = y0 + q4 * 4 - 4800)
    (hm : m = (mq + 10) % 12 + 1) (hd : d = k - 7834 * mq / 256) :
    ∃ Y w, jdn y m d = 365 * Y - 32104 + Y / 4 - Y / 100 + Y / 100 / 4 + w ∧ s = 365 * Y + Y / 4 + w ∧
      60 ≤ w ∧ w ≤ 425 ∧ 1 ≤ m ∧ m ≤ 12 ∧ 1 ≤ d ∧ d ≤ 31 ∧
      (m > 2 ∧ y = Y - 4800 ∧ (m ≤ 10 → w ≤ 304) ∨ m ≤ 2 ∧ y = Y - 4799 ∧ 366 ≤ w) := by
  have hy0' : y0 = 0 ∨ y0 = 1 ∨ y0 = 2 ∨ y0 = 3 := by omega
  have hk' : 123 ≤ k ∧ k ≤ 488 := by split at hk <;> omega
  have hmq' : mq = 4 ∨ mq = 5 ∨ mq = 6 ∨ mq = 7 ∨ mq = 8 ∨ mq = 9 ∨ mq = 10 ∨ mq = 11 ∨ mq = 12 ∨ mq = 13 ∨ mq = 14 ∨ mq = 15 := by omega
  have hm1 : 1 ≤ m ∧ m ≤ 12 := by omega
  have hd1 : 1 ≤ d ∧ d ≤ 31 := by omega
  have hj := jdn_closed y m d hm1.1 hm1.2
  by_cases h2 : m > 2
  · rw [if_pos h2] at hj
    refine ⟨y + 4800, 7834 * (m + 1) / 256 + d - 63, by omega, ?_, by omega, by omega, hm1.1, hm1.2, hd1.1, hd1.2,
      .inl ⟨h2, by omega, by omega⟩⟩
    have hw : 7834 * (m + 1) / 256 + d = k := by
      rcases hmq' with h | h | h | h | h | h | h | h | h | h | h | h <;> subst h <;> omega
    rcases hy0' with h | h | h | h <;> subst h <;> simp at hk <;> omega
  · rw [if_neg h2] at hj
    refine ⟨y + 4799, 7834 * (m + 13) / 256 + d - 63, by omega, ?_, by omega, by omega, hm1.1, hm1.2, hd1.1, hd1.2,
      .inr ⟨by omega, by omega, by omega⟩⟩
    have hw : 7834 * (m + 13) / 256 + d = k := by
      rcases hmq' with h | h | h | h | h | h | h | h | h | h | h | h <;> subst h <;> omega
    rcases hy0' with h | h | h | h <;> subst h <;> simp at hk <;> omega

/-- The day that `julian2date` gives where its sum wraps around is 88192 or 88193 days too late. -/
theorem j2dTail_day (jd : Int) (h : -120296 ≤ jd ∧ jd ≤ -32045) :
    let c := j2dTail (wrapSum jd)
    (jdn c.1 c.2.1 c.2.2 = jd + 88192 ∨ jdn c.1 c.2.1 c.2.2 = jd + 88193) ∧ 1 ≤ c.2.1 ∧ c.2.1 ≤ 12 ∧ 1 ≤ c.2.2 ∧
      c.2.2 ≤ 31 ∧ (jd < -88193 → jdn c.1 c.2.1 c.2.2 < 0) ∧
      (-88193 ≤ jd → 0 ≤ jdn c.1 c.2.1 c.2.2 ∧ isValidJulian c.1 c.2.1 = true) ∧ c.1 ≤ 0 := by
  intro c
  have hs : 0 ≤ wrapSum jd ∧ wrapSum jd ≤ 88253 := by unfold wrapSum; split <;> omega
  obtain ⟨Y, w, hj, he, hw1, hw2, hm1, hm2, hd1, hd2, hy⟩ :=
    j2dTail_year (wrapSum jd) _ _ _ _ _ _ _ _ hs rfl rfl rfl rfl rfl rfl rfl rfl
  change jdn c.1 c.2.1 c.2.2 = _ at hj
  change 1 ≤ c.2.1 at hm1
  change c.2.1 ≤ 12 at hm2
  change 1 ≤ c.2.2 at hd1
  change c.2.2 ≤ 31 at hd2
  change c.2.1 > 2 ∧ c.1 = Y - 4800 ∧ (c.2.1 ≤ 10 → w ≤ 304) ∨ c.2.1 ≤ 2 ∧ c.1 = Y - 4799 ∧ 366 ≤ w at hy
  generalize c.1 = y, c.2.1 = m, c.2.2 = d, jdn c.1 c.2.1 c.2.2 = j at *
  have hx : (-76259 ≤ jd ∧ wrapSum jd = jd + 120298) ∨ (jd < -76259 ∧ -112783 ≤ jd ∧ wrapSum jd = jd + 120297) ∨
      (jd < -112783 ∧ wrapSum jd = jd + 120296) := by
    unfold wrapSum; split <;> omega
  refine ⟨by omega, hm1, hm2, hd1, hd2, by omega, fun hl => ⟨by omega, ?_⟩, by omega⟩
  rw [isValidJulian_iff]
  omega

/-- The day step of `add_interval` in a release build, for the targets where `julian2date` wraps around. -/
theorem addDays_wrapped {t n : Int} (h : TsRange t) (hn : In32 n)
    (hw : -120296 ≤ targetDay t n ∧ targetDay t n ≤ -32045) :
    (-88193 ≤ targetDay t n → ∃ k, (k = 88192 ∨ k = 88193) ∧
      Timestamp.addDays .release t n = .ok (t + (n + k) * 86400000000) ∧ TsRange (t + (n + k) * 86400000000)) ∧
    (targetDay t n < -88193 → (Timestamp.addDays .release t n).IsErr) := by
  rw [targetDay_eq] at *
  obtain ⟨c, hr, hd, hy1, hy2, he⟩ := fields_spec .release h
  have hb := real_bounds hr
  have hcl := clockOf_real t
  have hmic := clockOf_micros t
  have ej := jdn_eq c
  have h' := (tsRange_iff _).1 h
  unfold In32 at hn
  obtain ⟨k1, m1, m2, d1, d2, kneg, kpos, y1⟩ := j2dTail_day (jdn c.y c.m c.d + n) (by omega)
  unfold Timestamp.addDays
  rw [he]
  simp only [Res.bind_ok, tmOf]
  rw [date2julian_eq .release _ _ _ (by omega) (by omega) (by omega) (by omega) (by omega) (by omega) (by omega)]
  simp only [Res.bind_ok]
  rw [wrap32_of_in (by omega), julian2date_wrapped _ (by omega), Res.bind_ok]
  generalize j2dTail (wrapSum (jdn c.y c.m c.d + n)) = c' at *
  have hC := hcl
  unfold Clock.Real at hC
  by_cases hv : isValidJulian c'.1 c'.2.1 = true
  · have := toTimestamp_eq .release ((tmOf c (clockOf t)).setYmd c') (clockOf t).us ⟨m1, m2⟩ ⟨d1, d2⟩ hv
      (by dsimp only [PgTime.setYmd, tmOf]; omega) (by dsimp only [PgTime.setYmd, tmOf]; omega)
      (by dsimp only [PgTime.setYmd, tmOf]; omega) (by omega)
    simp only [PgTime.setYmd, tmOf] at this
    rw [show (⟨(clockOf t).h, (clockOf t).mi, (clockOf t).s, (clockOf t).us⟩ : Clock) = clockOf t from rfl] at this
    have ei : instant ⟨c'.1, c'.2.1, c'.2.2⟩ (clockOf t) =
        (jdn c'.1 c'.2.1 c'.2.2 - 2451545) * 86400000000 + t % 86400000000 := by
      unfold instant dayMicros
      rw [hmic]
      unfold jdn; omega
    rw [ei] at this
    constructor
    · intro hl
      have hp := (kpos (by omega)).1
      have hR : TsRange ((jdn c'.1 c'.2.1 c'.2.2 - 2451545) * 86400000000 + t % 86400000000) := by
        rw [tsRange_iff]; omega
      refine ⟨jdn c'.1 c'.2.1 c'.2.2 - (jdn c.y c.m c.d + n), by omega, ?_, ?_⟩
      · rw [show t + (n + (jdn c'.1 c'.2.1 c'.2.2 - (jdn c.y c.m c.d + n))) * 86400000000 =
          (jdn c'.1 c'.2.1 c'.2.2 - 2451545) * 86400000000 + t % 86400000000 from by omega]
        exact this.1 hR
      · rw [show t + (n + (jdn c'.1 c'.2.1 c'.2.2 - (jdn c.y c.m c.d + n))) * 86400000000 =
          (jdn c'.1 c'.2.1 c'.2.2 - 2451545) * 86400000000 + t % 86400000000 from by omega]
        exact hR
    · intro hl
      have hp := kneg (by omega)
      exact this.2 (by rw [tsRange_iff]; omega)
  · refine ⟨fun hl => absurd (kpos (by omega)).2 hv, fun _ => ?_⟩
    unfold PgTime.toTimestamp
    rw [if_pos (by simpa [PgTime.setYmd] using hv)]
    exact ⟨_, rfl⟩

end Pg
