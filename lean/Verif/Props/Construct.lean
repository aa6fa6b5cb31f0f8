import Verif.Lemmas.F64Micro
import Verif.Lemmas.Date
import Verif.Lemmas.IntervalFields
import Verif.Spec.Seconds
import Mathlib.Tactic.Push

/-!
# Properties C09, C48, C50: construction from float seconds, interval fields
-/

namespace Props
open Pg Spec

theorem clamp_in64 (x : Int) : In64 (F64.clamp (-9223372036854775808) 9223372036854775807 x) := by
  unfold F64.clamp In64
  split
  · omega
  · split <;> omega

theorem secMicros_in64 (s : F64) : In64 (secMicros s) := by
  unfold secMicros F64.toI64
  split
  · decide
  · decide
  · decide
  · exact clamp_in64 _

theorem secMicros_spec (q : Rat) : MicrosOf q (secMicros (.fin q)) := by
  refine ⟨fun n h1 h2 h => F64.secMicros_near ⟨h1, h2⟩ h, fun hq => ?_⟩
  have hb : |q * 1000000| ≤ 2 ^ 40 * 1000000 := by
    rw [abs_mul, abs_of_pos (by norm_num : (0 : Rat) < 1000000)]
    exact mul_le_mul_of_nonneg_right hq (by norm_num)
  obtain ⟨t, h1, h2⟩ := F64.rnd_near (q := q * 1000000) (le_trans hb (by norm_num))
  have h3 := F64.roundAway_err t
  have hk : |(F64.roundAway t : Rat) - q * 1000000| ≤
      1 / 2 + |q * 1000000| / 2 ^ 53 + 1 / 2 ^ 100 := by
    have := abs_add_le ((F64.roundAway t : Rat) - t) (t - q * 1000000)
    rw [show (F64.roundAway t : Rat) - t + (t - q * 1000000) =
      (F64.roundAway t : Rat) - q * 1000000 by ring] at this
    linarith
  have hn : |(F64.roundAway t : Rat)| ≤ 4611686018427387904 := by
    have := abs_add_le ((F64.roundAway t : Rat) - q * 1000000) (q * 1000000)
    rw [sub_add_cancel] at this
    have hd : |q * 1000000| / 2 ^ 53 ≤ 2 ^ 40 * 1000000 / 2 ^ 53 :=
      div_le_div_of_nonneg_right hb (by norm_num)
    have : |(F64.roundAway t : Rat)| ≤ 1 / 2 + 2 ^ 40 * 1000000 / 2 ^ 53 + 1 / 2 ^ 100 +
      2 ^ 40 * 1000000 := by linarith
    refine le_trans this ?_
    norm_num
  rw [abs_le] at hn
  have n1 : -4611686018427387904 ≤ F64.roundAway t := by exact_mod_cast hn.1
  have n2 : F64.roundAway t ≤ 4611686018427387904 := by exact_mod_cast hn.2
  have he : secMicros (.fin q) = F64.roundAway t := by
    unfold secMicros
    rw [F64.ofInt_usecs]
    unfold F64.mul
    simp only
    rw [h1]
    unfold F64.round F64.toI64
    simp only [F64.truncQ_int]
    unfold F64.clamp
    rw [if_neg (by omega), if_neg (by omega)]
  rw [he]; exact hk

/-- Seconds of a minute give between 0 and 60 million microseconds. -/
theorem secMicros_minute {q : Rat} (h0 : 0 ≤ q) (h1 : q ≤ 60) :
    0 ≤ secMicros (.fin q) ∧ secMicros (.fin q) ≤ 60000000 := by
  have h := (secMicros_spec q).2 (by rw [abs_of_nonneg h0]; linarith)
  have hq : 0 ≤ q * 1000000 := by linarith
  rw [abs_of_nonneg hq] at h
  have hd : q * 1000000 / 2 ^ 53 ≤ 60000000 / 2 ^ 53 :=
    div_le_div_of_nonneg_right (by linarith) (by norm_num)
  have h2 : |(secMicros (.fin q) : Rat) - q * 1000000| ≤ 3 / 4 := by
    refine le_trans h ?_
    have : (1 : Rat) / 2 + 60000000 / 2 ^ 53 + 1 / 2 ^ 100 ≤ 3 / 4 := by norm_num
    linarith
  rw [abs_le] at h2
  have a : (-1 : Rat) < secMicros (.fin q) := by linarith
  have b : (secMicros (.fin q) : Rat) < 60000001 := by linarith
  have a' : -1 < secMicros (.fin q) := by exact_mod_cast a
  have b' : secMicros (.fin q) < 60000001 := by exact_mod_cast b
  omega

theorem badClock_iff (h mi : Int) (q : Rat) :
    badClock h mi (.fin q) = true ↔ ¬ ClockArgs h mi q := by
  have e : F64.ofInt 60 = .fin 60 := by rw [F64.ofInt_ok (by omega)]; norm_num
  unfold badClock ClockArgs
  rw [e]
  unfold F64.lt
  simp only [Bool.or_eq_true, decide_eq_true_eq, Bool.and_eq_true]
  by_cases a : 0 ≤ q
  · by_cases b : q ≤ 60
    · by_cases c : q = 0
      · subst c
        simp only [lt_self_iff_false, or_false, le_refl, true_and, b, not_lt.2 b, and_true]
        omega
      · have c' : 0 < q := lt_of_le_of_ne a (Ne.symm c)
        simp only [c', c, not_lt.2 b, a, b, not_lt.2 a, or_true, and_true, and_false, or_false,
          imp_false, true_and]
        omega
    · simp [b, not_le.1 b]
  · simp [a, not_le.1 a]

theorem clockMicros_eq (p : Profile) {h mi : Int} {q : Rat} (hc : ClockArgs h mi q) :
    clockMicros p h mi (.fin q) = .ok (((h * 60 + mi) * 60) * 1000000 + secMicros (.fin q)) := by
  obtain ⟨h1, h2, h3, h4, h5, h6, -⟩ := hc
  have := secMicros_minute h5 h6
  unfold clockMicros
  simp (disch := omega) only [chk32_ok, chk64_ok, Res.bind_ok]

/-- **C09 (times of day), finite seconds.** `Time::try_from_hms` accepts exactly the clock times
from 00:00:00 to 24:00:00 (second 60 allowed) and returns the microseconds since midnight. -/
theorem C09_time (p : Profile) (h mi : Int) (q : Rat) :
    (ClockArgs h mi q → ∃ k, MicrosOf q k ∧ 0 ≤ k ∧ k ≤ 60000000 ∧
      Time.tryFromHms p h mi (.fin q) = .ok ⟨h * 3600000000 + mi * 60000000 + k⟩) ∧
    (¬ ClockArgs h mi q → Time.tryFromHms p h mi (.fin q) = .err .overflow) := by
  constructor
  · intro hc
    obtain ⟨k1, k2⟩ := secMicros_minute hc.2.2.2.2.1 hc.2.2.2.2.2.1
    refine ⟨_, secMicros_spec q, k1, k2, ?_⟩
    unfold Time.tryFromHms
    rw [if_neg (by rw [badClock_iff]; exact not_not.2 hc), clockMicros_eq p hc]
    simp only [Res.bind_ok, Res.pure_eq, Res.ok.injEq, Time.mk.injEq]
    omega
  · intro hc
    unfold Time.tryFromHms
    rw [if_pos ((badClock_iff _ _ _).2 hc)]

/-- The result of `try_from_hms` is a valid time of day. -/
theorem C09_time_range (p : Profile) {h mi : Int} {q : Rat} {t : Time}
    (ht : Time.tryFromHms p h mi (.fin q) = .ok t) : 0 ≤ t.v ∧ t.v ≤ 86400000000 := by
  by_cases hc : ClockArgs h mi q
  · obtain ⟨k, hk, h1, h2, he⟩ := (C09_time p h mi q).1 hc
    rw [he] at ht
    injection ht with ht
    subst ht
    obtain ⟨a1, a2, a3, a4, a5, a6, a7⟩ := hc
    simp only
    by_cases h24 : h = 24
    · obtain ⟨b1, b2⟩ := a7 h24
      have := hk.1 0 (by omega) (by omega) (by rw [b2]; norm_num)
      omega
    · omega
  · rw [(C09_time p h mi q).2 hc] at ht; cases ht

theorem badClock_inf (h mi : Int) (b : Bool) : badClock h mi (.inf b) = true := by
  have e : F64.ofInt 60 = .fin 60 := by rw [F64.ofInt_ok (by omega)]; norm_num
  unfold badClock
  rw [e]
  cases b <;> simp [F64.lt]

/-- **C09, infinite seconds** are rejected. -/
theorem C09_time_infinite (p : Profile) (h mi : Int) (b : Bool) :
    Time.tryFromHms p h mi (.inf b) = .err .overflow := by
  unfold Time.tryFromHms
  rw [if_pos (badClock_inf h mi b)]

/-- **C09, violation.** `Time::try_from_hms` does not reject NaN seconds: they count as zero. -/
theorem C09_time_nan_violated (p : Profile) (h mi : Int) (hh : 0 ≤ h ∧ h ≤ 23) (hm : 0 ≤ mi ∧ mi ≤ 59) :
    Time.tryFromHms p h mi .nan = .ok ⟨h * 3600000000 + mi * 60000000⟩ := by
  have hb : badClock h mi .nan = false := by
    unfold badClock F64.lt
    rw [show F64.ofInt 60 = .fin 60 by rw [F64.ofInt_ok (by omega)]; norm_num]
    simp; omega
  have hs : secMicros .nan = 0 := by
    unfold secMicros
    rw [F64.ofInt_usecs]
    rfl
  unfold Time.tryFromHms clockMicros
  rw [hb, hs]
  simp (disch := omega) only [chk32_ok, chk64_ok, Res.bind_ok, Bool.false_eq_true, if_false]
  simp only [Res.pure_eq, Res.ok.injEq, Time.mk.injEq]
  omega

/-- The float nearest to `k` microseconds is read back as exactly `k` microseconds. -/
theorem C09_exact_micros (p : Profile) (h mi k : Int) (hh : 0 ≤ h ∧ h ≤ 23) (hm : 0 ≤ mi ∧ mi ≤ 59)
    (hk : 0 ≤ k ∧ k ≤ 60000000) :
    Time.tryFromHms p h mi (F64.rnd ((k : Rat) / 1000000)) =
      .ok ⟨h * 3600000000 + mi * 60000000 + k⟩ := by
  obtain ⟨s, e, hs⟩ := F64.nearest_micros (k := k) (by omega)
  have hk1 : (0 : Rat) ≤ k := by exact_mod_cast hk.1
  have hk2 : (k : Rat) ≤ 60000000 := by exact_mod_cast hk.2
  -- the rounded value stays within [0, 60]
  have hr : 0 ≤ s ∧ s ≤ 60 := by
    rcases Int.lt_or_le 0 k with h0 | h0
    · rcases Int.lt_or_le k 60000000 with h1 | h1
      · have a : (1 : Rat) ≤ k := by exact_mod_cast h0
        have b : (k : Rat) ≤ 59999999 := by exact_mod_cast (by omega : k ≤ 59999999)
        rw [abs_le] at hs
        constructor <;> linarith
      · have : k = 60000000 := by omega
        subst this
        rw [show ((60000000 : Int) : Rat) / 1000000 = ((60 : Int) : Rat) by norm_num,
          F64.rnd_int (by norm_num)] at e
        injection e with e
        rw [← e]; norm_num
    · have : k = 0 := by omega
      subst this
      rw [show ((0 : Int) : Rat) / 1000000 = 0 by norm_num, F64.rnd_zero] at e
      injection e with e
      rw [← e]; norm_num
  rw [e]
  obtain ⟨k', hk', -, -, he⟩ := (C09_time p h mi s).1
    ⟨hh.1, by omega, hm.1, hm.2, hr.1, hr.2, fun h24 => absurd h24 (by omega)⟩
  rw [he, hk'.1 k (by omega) (by omega) hs]

example : ClockArgs 23 59 (59999999 / 1000000) ∧ ClockArgs 24 0 0 ∧ ¬ ClockArgs 24 0 1 ∧
    ¬ ClockArgs 23 60 0 := by
  unfold ClockArgs; norm_num
example : Time.tryFromHms .debug 23 59 (F64.rnd (59999999 / 1000000)) = .ok ⟨86399999999⟩ := by
  decide +kernel

theorem ofDayTime_eq {n k : Int} (hn : In32 n) (hk : 0 ≤ k ∧ k ≤ 86400000000) :
    Timestamp.ofDayTime n k = if TsRange (n * 86400000000 + k) then .ok ⟨n * 86400000000 + k⟩
      else .err .overflow := by
  unfold In32 at hn
  unfold Timestamp.ofDayTime
  by_cases hr : TsRange (n * 86400000000 + k)
  · have hr' := (tsRange_iff _).1 hr
    rw [if_pos hr, checked64_some (x := n * 86400000000) (by omega)]
    simp only [Option.bind_some]
    rw [checked64_some (by omega)]
    simp only
    rw [if_neg (by omega), if_pos ((isValidTimestamp_iff _).2 hr)]
  · rw [if_neg hr]
    split
    · rfl
    · rename_i r hrr
      have hre : r = n * 86400000000 + k := by
        unfold checked64 at hrr
        split at hrr
        · simp only [Option.bind_some] at hrr
          split at hrr
          · injection hrr with hrr; exact hrr.symm
          · cases hrr
        · cases hrr
      split
      · rfl
      · rw [hre, if_neg (by rw [isValidTimestamp_iff]; exact hr)]

theorem clock_bounds {h mi : Int} {q : Rat} (hc : ClockArgs h mi q) :
    0 ≤ (h * 60 + mi) * 60 * 1000000 + secMicros (.fin q) ∧
    (h * 60 + mi) * 60 * 1000000 + secMicros (.fin q) ≤ 86400000000 := by
  obtain ⟨a1, a2, a3, a4, a5, a6, a7⟩ := hc
  have := secMicros_minute a5 a6
  by_cases h24 : h = 24
  · obtain ⟨b1, b2⟩ := a7 h24
    have := (secMicros_spec q).1 0 (by omega) (by omega) (by rw [b2]; norm_num)
    omega
  · omega

/-- **C09 (timestamps).** With a real AD date and a clock time, `try_from_ymd_hms` is the named
instant if that is in the timestamp range and an error otherwise; every other finite argument list
is an error. It never panics. -/
theorem C09_timestamp (p : Profile) (y mo d h mi : Int) (q : Rat) (hy : In32 y) :
    (0 < y ∧ (⟨y, mo, d⟩ : YMD).Real ∧ ClockArgs h mi q → ∃ k, MicrosOf q k ∧ 0 ≤ k ∧ k ≤ 60000000 ∧
      let x := dayNumber ⟨y, mo, d⟩ * dayMicros + (h * 3600000000 + mi * 60000000 + k)
      (TsRange x → Timestamp.tryFromYmdHms p y mo d h mi (.fin q) = .ok ⟨x⟩) ∧
      (¬ TsRange x → Timestamp.tryFromYmdHms p y mo d h mi (.fin q) = .err .overflow)) ∧
    (¬ (0 < y ∧ (⟨y, mo, d⟩ : YMD).Real ∧ ClockArgs h mi q) →
      Timestamp.tryFromYmdHms p y mo d h mi (.fin q) = .err .overflow) := by
  have hval := validateDate_date p { PgTime.new with year := y, mon := mo, mday := d } false hy
  simp only [Bool.false_eq_true, if_false] at hval
  unfold Timestamp.tryFromYmdHms
  simp only
  rw [hval]
  by_cases hyr : 0 < y ∧ (⟨y, mo, d⟩ : YMD).Real
  · rw [if_pos hyr]
    simp only [Res.bind_ok]
    have hb := real_bounds hyr.2
    by_cases hv : isValidJulian y mo = true
    · have hi := instant_bounds (y := y) (m := mo) (d := d) ⟨hb.1, hb.2.1⟩ hb.2.2 hv
      have hv' := (isValidJulian_iff _ _).1 hv
      have e := jdn_eq ⟨y, mo, d⟩
      simp only at e hb
      rw [if_neg (by simpa using hv),
        date2julian_eq p _ _ _ (by omega) (by omega) (by omega) (by omega) (by omega) (by omega)
        (by omega)]
      simp only [Res.bind_ok]
      rw [chk32_ok (by omega)]
      have hcond : ((F64.fin q).isNan || badClock h mi (.fin q)) = true ↔ ¬ ClockArgs h mi q :=
        badClock_iff h mi q
      simp only [Res.bind_ok]
      by_cases hc : ClockArgs h mi q
      · refine ⟨fun _ => ?_, fun hn => absurd ⟨hyr.1, hyr.2, hc⟩ hn⟩
        obtain ⟨k1, k2⟩ := secMicros_minute hc.2.2.2.2.1 hc.2.2.2.2.2.1
        refine ⟨_, secMicros_spec q, k1, k2, ?_⟩
        have cb := clock_bounds hc
        rw [if_neg (fun hh => hcond.1 hh hc), clockMicros_eq p hc]
        simp only [Res.bind_ok]
        rw [ofDayTime_eq (by unfold In32; omega) cb]
        unfold dayMicros
        rw [show (jdn y mo d - 2451545) * 86400000000 + ((h * 60 + mi) * 60 * 1000000 + secMicros (.fin q))
          = dayNumber ⟨y, mo, d⟩ * 86400000000 + (h * 3600000000 + mi * 60000000 + secMicros (.fin q)) by
            omega]
        exact ⟨fun hr => if_pos hr, fun hr => if_neg hr⟩
      · refine ⟨fun hn => absurd hn.2.2 hc, fun _ => ?_⟩
        rw [if_pos (hcond.2 hc)]
    · rw [if_pos (by simpa using hv)]
      refine ⟨fun hn => ?_, fun _ => rfl⟩
      have hc := hn.2.2
      obtain ⟨k1, k2⟩ := secMicros_minute hc.2.2.2.2.1 hc.2.2.2.2.2.1
      refine ⟨_, secMicros_spec q, k1, k2, fun hr => ?_, fun _ => rfl⟩
      exfalso
      have cb := clock_bounds hc
      have := not_tsRange_of_not_julian (t := ⟨0, 0, 0, h * 3600000000 + mi * 60000000 + secMicros (.fin q)⟩)
        hyr.2 (by unfold Clock.micros; simp only; omega) hv
      apply this
      unfold instant Clock.micros
      simp only [Int.zero_mul, Int.zero_add]
      exact hr
  · rw [if_neg hyr]
    exact ⟨fun hn => absurd ⟨hn.1, hn.2.1⟩ hyr, fun _ => rfl⟩

/-- **C09 (timestamps), NaN or infinite seconds** are rejected. -/
theorem C09_timestamp_nonfinite (p : Profile) (y mo d h mi : Int) (s : F64) (hy : In32 y)
    (hs : ∀ q, s ≠ .fin q) : (Timestamp.tryFromYmdHms p y mo d h mi s).IsErr := by
  have hval := validateDate_date p { PgTime.new with year := y, mon := mo, mday := d } false hy
  simp only [Bool.false_eq_true, if_false] at hval
  have hbad : (s.isNan || badClock h mi s) = true := by
    cases s with
    | nan => rfl
    | inf b => rw [badClock_inf]; rfl
    | fin q => exact absurd rfl (hs q)
  unfold Timestamp.tryFromYmdHms
  simp only
  rw [hval]
  by_cases hyr : 0 < y ∧ (⟨y, mo, d⟩ : YMD).Real
  · rw [if_pos hyr]
    simp only [Res.bind_ok]
    have hb := real_bounds hyr.2
    by_cases hv : isValidJulian y mo = true
    · have hi := instant_bounds (y := y) (m := mo) (d := d) ⟨hb.1, hb.2.1⟩ hb.2.2 hv
      have hv' := (isValidJulian_iff _ _).1 hv
      have e := jdn_eq ⟨y, mo, d⟩
      simp only at e hb
      rw [if_neg (by simpa using hv),
        date2julian_eq p _ _ _ (by omega) (by omega) (by omega) (by omega) (by omega) (by omega)
        (by omega)]
      simp only [Res.bind_ok]
      rw [chk32_ok (by omega)]
      simp only [Res.bind_ok]
      rw [if_pos hbad]
      exact ⟨_, rfl⟩
    · rw [if_pos (by simpa using hv)]; exact ⟨_, rfl⟩
  · rw [if_neg hyr]; exact ⟨_, rfl⟩

example : Timestamp.tryFromYmdHms .debug 2024 2 29 23 59 (F64.rnd (599 / 10)) =
    .ok ⟨762566399900000⟩ := by decide +kernel
example : Timestamp.tryFromYmdHms .debug 294276 12 31 24 0 (.fin 0) = .err .overflow := by
  decide +kernel

/-! ## C50 -/

/-- **C50 (non-finite seconds).** -/
theorem C50_rejects (y mo w d h mi : Int) (s : F64) :
    (∀ q, s ≠ .fin q) ↔ Interval.tryFromYmwdHms y mo w d h mi s = .err .overflow := by
  unfold Interval.tryFromYmwdHms
  cases s with
  | nan => simp [F64.isNan]
  | inf b => simp [F64.isInf]
  | fin q => simp [F64.isNan, F64.isInf]

/-- **C50 (finite seconds).** The fields are the named sums, modulo the field widths, and exactly
when they fit. -/
theorem C50_construct (y mo w d h mi : Int) (q : Rat) :
    ∃ iv k, Interval.tryFromYmwdHms y mo w d h mi (.fin q) = .ok iv ∧ MicrosOf q k ∧ In64 k ∧
      In32 iv.month ∧ In32 iv.day ∧ In64 iv.time ∧
      iv.month % 4294967296 = (12 * y + mo) % 4294967296 ∧
      iv.day % 4294967296 = (7 * w + d) % 4294967296 ∧
      iv.time % 18446744073709551616 =
        (3600000000 * h + 60000000 * mi + k) % 18446744073709551616 ∧
      (In32 (12 * y + mo) → iv.month = 12 * y + mo) ∧
      (In32 (7 * w + d) → iv.day = 7 * w + d) ∧
      (In64 (3600000000 * h + 60000000 * mi + k) → iv.time = 3600000000 * h + 60000000 * mi + k) := by
  have e : Interval.tryFromYmwdHms y mo w d h mi (.fin q) =
      .ok ⟨wrap32 (wrap32 (y * 12) + mo), wrap32 (wrap32 (w * 7) + d),
        wrap64 (wrap64 (wrap64 (h * 3600000000) + wrap64 (mi * 60000000)) + secMicros (.fin q))⟩ := rfl
  refine ⟨_, _, e, secMicros_spec q, secMicros_in64 _, wrap32_in _, wrap32_in _, wrap64_in _, ?_⟩
  have m64 := secMicros_in64 (.fin q)
  generalize secMicros (.fin q) = k at *
  simp only
  unfold In64 In32 wrap32 wrap64 at *
  refine ⟨?_, ?_, ?_, ?_, ?_, ?_⟩ <;> omega

example : Interval.tryFromYmwdHms 1 2 3 4 5 6 (F64.rnd (7.25)) = .ok ⟨14, 25, 18367250000⟩ ∧
    Interval.tryFromYmwdHms 178956971 0 0 0 0 0 (.fin 0) = .ok ⟨-2147483644, 0, 0⟩ := by decide +kernel

end Props
