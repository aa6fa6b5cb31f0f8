import Verif.Lemmas.TsArith
import Verif.Props.Intervals

/-!
# Properties C10 – C14: timestamp and interval arithmetic
-/

namespace Props
open Pg Spec

theorem notInf {t : Timestamp} (h : TsRange t.v) : t.isInfinite = false := by
  have h' := (tsRange_iff _).1 h
  unfold Timestamp.isInfinite; simp; omega

/-! ## C10 -/

/-- **C10.** Adding `n` months moves a valid timestamp to the calendar day `n` months later (clamped
to the end of the month) at the same time of day; an error exactly when that is out of range. -/
theorem C10_add_months (p : Profile) (t : Timestamp) (n : Int) (h : TsRange t.v) (hn : In32 n) :
    ∃ (c : YMD) (k : Clock), c.Real ∧ k.Real ∧ instant c k = t.v ∧
      (TsRange (instant (c.addMonths n) k) →
        t.addInterval p ⟨n, 0, 0⟩ = .ok ⟨instant (c.addMonths n) k⟩) ∧
      (¬ TsRange (instant (c.addMonths n) k) → (t.addInterval p ⟨n, 0, 0⟩).IsErr) := by
  obtain ⟨c, hr, hd, h1, h2⟩ := addMonths_spec p h hn
  refine ⟨c, clockOf t.v, hr, clockOf_real _, instant_fields hd, ?_⟩
  have h' := (tsRange_iff _).1 h
  unfold Timestamp.addInterval
  rw [notInf h]
  simp only [Bool.false_eq_true, if_false]
  by_cases hz : n = 0
  · have hc0 : c.addMonths n = c := by
      subst hz
      have hb := real_bounds hr
      have hm := hr.2.2.2
      unfold YMD.addMonths
      have e1 : (c.y * 12 + (c.m - 1) + 0) / 12 = c.y := by omega
      have e2 : (c.y * 12 + (c.m - 1) + 0) % 12 + 1 = c.m := by omega
      simp only [e1, e2, if_pos hm]
    rw [hc0, instant_fields hd]
    refine ⟨fun _ => ?_, fun hx => absurd h hx⟩
    subst hz
    simp only [Timestamp.monthStep, Timestamp.dayStep, ne_eq, not_true_eq_false, if_false, Res.bind_ok]
    rw [wrap64_of_in (by omega), Int.add_zero, if_pos ((isValidTimestamp_iff _).2 h)]
  · constructor
    · intro hx
      have hx' := (tsRange_iff _).1 hx
      simp only [Timestamp.monthStep, Timestamp.dayStep, ne_eq, hz, not_false_eq_true, if_true,
        not_true_eq_false, if_false, h1 hx, Res.bind_ok]
      rw [wrap64_of_in (by omega), Int.add_zero, if_pos ((isValidTimestamp_iff _).2 hx)]
    · intro hx
      obtain ⟨e, he⟩ := h2 hx
      simp only [Timestamp.monthStep, ne_eq, hz, not_false_eq_true, if_true, he, Res.bind_err]
      exact ⟨e, rfl⟩

/-- Witnesses: 2020-01-31 plus one month is 2020-02-29, minus 23 months is 2018-02-28. -/
example : TsRange 633744000000000 ∧
    instant ⟨2020, 1, 31⟩ ⟨0, 0, 0, 0⟩ = 633744000000000 ∧
    (⟨2020, 1, 31⟩ : YMD).addMonths 1 = ⟨2020, 2, 29⟩ ∧
    (⟨2020, 1, 31⟩ : YMD).addMonths (-23) = ⟨2018, 2, 28⟩ ∧
    (⟨633744000000000⟩ : Timestamp).addInterval .debug ⟨1, 0, 0⟩ = .ok ⟨636249600000000⟩ ∧
    (⟨633744000000000⟩ : Timestamp).addInterval .debug ⟨2147483647, 0, 0⟩ = .err .invalid := by decide

/-! ## C11 -/

/-- Days from the first supported day to the day `n` days after timestamp `t`. -/
def targetDay (t n : Int) : Int := t / dayMicros + n - dayNumber firstDay

/-- **C11** (all targets except a window of days just before the first supported day). Adding `n`
days is exact if the result is in range and an error otherwise; no panic. Missing: targets 1 to
120296 days before the first supported day in debug builds, and 32045 to 120296 days before it in
release builds, where the property is false (see `C11_violated_debug`, `C11_violated_release`). -/
theorem C11_partial (p : Profile) (t : Timestamp) (n : Int) (h : TsRange t.v) (hn : In32 n)
    (hd : p = .debug → ¬ (-120296 ≤ targetDay t.v n ∧ targetDay t.v n ≤ -1))
    (hr : p = .release → ¬ (-120296 ≤ targetDay t.v n ∧ targetDay t.v n ≤ -32045)) :
    (TsRange (t.v + n * dayMicros) → t.addInterval p ⟨0, n, 0⟩ = .ok ⟨t.v + n * dayMicros⟩) ∧
    (¬ TsRange (t.v + n * dayMicros) → (t.addInterval p ⟨0, n, 0⟩).IsErr) := by
  have e : targetDay t.v n = t.v / 86400000000 + n + 2451545 := by
    unfold targetDay dayMicros
    rw [show dayNumber firstDay = -2451545 from by decide]; omega
  rw [e] at hd hr
  obtain ⟨h1, h2⟩ := addDays_spec p h hn ⟨hd, hr⟩
  have h' := (tsRange_iff _).1 h
  unfold Timestamp.addInterval dayMicros
  rw [notInf h]
  simp only [Bool.false_eq_true, if_false]
  by_cases hz : n = 0
  · subst hz
    simp only [Timestamp.monthStep, Timestamp.dayStep, ne_eq, not_true_eq_false, if_false, Res.bind_ok]
    refine ⟨fun _ => ?_, fun hx => absurd h (by simpa using hx)⟩
    rw [wrap64_of_in (by omega), if_pos ((isValidTimestamp_iff _).2 (by simpa using h))]
    simp
  · constructor
    · intro hx
      have hx' := (tsRange_iff _).1 hx
      simp only [Timestamp.monthStep, Timestamp.dayStep, ne_eq, hz, not_false_eq_true, if_true,
        not_true_eq_false, if_false, h1 hx, Res.bind_ok]
      rw [wrap64_of_in (by omega), Int.add_zero, if_pos ((isValidTimestamp_iff _).2 hx)]
    · intro hx
      obtain ⟨e, he⟩ := h2 hx
      simp only [Timestamp.monthStep, Timestamp.dayStep, ne_eq, hz, not_false_eq_true, if_true,
        not_true_eq_false, if_false, he, Res.bind_ok, Res.bind_err]
      exact ⟨e, rfl⟩

/-- **C11 is violated in debug builds**: the first supported timestamp minus one day panics. -/
theorem C11_violated_debug :
    TsRange (-211813488000000000) ∧
    (⟨-211813488000000000⟩ : Timestamp).addInterval .debug ⟨0, -1, 0⟩ = .panic := by decide

/-- **C11 is violated in release builds**: 2000-01-01 minus 2500000 days, which lies before the
first supported day, is `Ok` with a timestamp 2411807 days before 2000-01-01. -/
theorem C11_violated_release :
    TsRange 0 ∧ ¬ TsRange (0 + -2500000 * dayMicros) ∧
    (⟨0⟩ : Timestamp).addInterval .release ⟨0, -2500000, 0⟩ = .ok ⟨-2411807 * dayMicros⟩ := by
  decide

example : TsRange 0 ∧ In32 (-2451545) ∧ ¬ (-120296 ≤ targetDay 0 (-2451545) ∧ targetDay 0 (-2451545) ≤ -1) ∧
    (⟨0⟩ : Timestamp).addInterval .debug ⟨0, -2451545, 0⟩ = .ok ⟨-211813488000000000⟩ ∧
    (⟨0⟩ : Timestamp).addInterval .debug ⟨0, 106751983, 0⟩ = .err .invalid ∧
    (⟨0⟩ : Timestamp).addInterval .debug ⟨0, -2147483648, 0⟩ = .err .invalid := by decide

/-! ## C12 -/

theorem toTimestamp_valid {p : Profile} {tm : PgTime} {f r : Int} (h : tm.toTimestamp p f = .ok r) :
    TsRange r := by
  unfold PgTime.toTimestamp at h
  split at h
  · cases h
  · simp only [Res.bind_eq_ok] at h
    obtain ⟨a, -, b, -, d, -, t, -, h⟩ := h
    split at h
    · cases h
    · split at h
      · cases h
      · split at h
        · rename_i hv
          injection h with h; subst h
          exact (isValidTimestamp_iff _).1 hv
        · cases h

theorem monthStep_valid {p : Profile} {t n r : Int} (ht : TsRange t)
    (h : Timestamp.monthStep p t n = .ok r) : TsRange r := by
  unfold Timestamp.monthStep Timestamp.addMonths at h
  split at h
  · simp only [Res.bind_eq_ok] at h
    obtain ⟨_, -, _, -, _, -, h⟩ := h
    exact toTimestamp_valid h
  · injection h with h; subst h; exact ht

theorem dayStep_valid {p : Profile} {t n r : Int} (ht : TsRange t)
    (h : Timestamp.dayStep p t n = .ok r) : TsRange r := by
  unfold Timestamp.dayStep Timestamp.addDays at h
  split at h
  · simp only [Res.bind_eq_ok] at h
    obtain ⟨_, -, _, -, _, -, h⟩ := h
    exact toTimestamp_valid h
  · injection h with h; subst h; exact ht

theorem addInterval_finite (p : Profile) {t : Timestamp} (h : TsRange t.v) (a : Interval) :
    t.addInterval p a = (do
      let r ← Timestamp.monthStep p t.v a.month
      let r ← Timestamp.dayStep p r a.day
      if isValidTimestamp (wrap64 (r + a.time)) then .ok ⟨wrap64 (r + a.time)⟩ else .err .invalid) := by
  unfold Timestamp.addInterval
  rw [notInf h]; rfl

theorem wrap64_valid {t : Int} (h : TsRange t) : wrap64 (t + 0) = t := by
  have h' := (tsRange_iff _).1 h
  rw [wrap64_of_in (by omega)]; omega

/-- **C12.** Adding an interval is adding its months, then its days, then its microseconds; the
whole fails as soon as one step fails. -/
theorem C12_steps (p : Profile) (t : Timestamp) (a : Interval)
    (h : TsRange t.v ∨ t = Timestamp.BEGIN ∨ t = Timestamp.END) :
    t.addInterval p a = (do
      let t ← t.addInterval p ⟨a.month, 0, 0⟩
      let t ← t.addInterval p ⟨0, a.day, 0⟩
      t.addInterval p ⟨0, 0, a.time⟩) := by
  rcases h with h | rfl | rfl
  · rw [addInterval_finite p h, addInterval_finite p h]
    simp only [Timestamp.dayStep, ne_eq, not_true_eq_false, if_false, Res.bind_ok]
    cases hm : Timestamp.monthStep p t.v a.month with
    | err e => rfl
    | panic => rfl
    | ok r =>
      have hr := monthStep_valid h hm
      simp only [Res.bind_ok]
      rw [wrap64_valid hr, if_pos ((isValidTimestamp_iff _).2 hr)]
      simp only [Res.bind_ok]
      rw [addInterval_finite p (t := ⟨r⟩) hr]
      simp only [Timestamp.monthStep, ne_eq, not_true_eq_false, if_false, Res.bind_ok]
      change _ = Res.bind (Timestamp.dayStep p r a.day >>= _) _
      change (Timestamp.dayStep p r a.day >>= _) = _
      cases hd : Timestamp.dayStep p r a.day with
      | err e => rfl
      | panic => rfl
      | ok r' =>
        have hr' := dayStep_valid hr hd
        simp only [Res.bind_ok]
        rw [wrap64_valid hr', if_pos ((isValidTimestamp_iff _).2 hr')]
        change _ = Timestamp.addInterval p ⟨r'⟩ _
        rw [addInterval_finite p (t := ⟨r'⟩) hr']
        rfl
  · rfl
  · rfl

/-- **C12.** Any `Ok` result is a valid timestamp (or the infinite operand itself). -/
theorem C12_ok_valid (p : Profile) (t r : Timestamp) (a : Interval)
    (h : t.addInterval p a = .ok r) : TsRange r.v ∨ (t.isInfinite = true ∧ r = t) := by
  unfold Timestamp.addInterval at h
  split at h
  · rename_i hi; injection h with h; exact .inr ⟨hi, h.symm⟩
  · simp only [Res.bind_eq_ok] at h
    obtain ⟨_, -, _, -, h⟩ := h
    split at h
    · rename_i hv
      injection h with h; subst h
      exact .inl ((isValidTimestamp_iff _).1 hv)
    · cases h

/-- **C12.** The zero interval is neutral; infinite timestamps absorb every interval. -/
theorem C12_zero_and_infinite (p : Profile) :
    (∀ t : Timestamp, TsRange t.v → t.addInterval p Interval.zero = .ok t) ∧
    (∀ a : Interval, Timestamp.BEGIN.addInterval p a = .ok Timestamp.BEGIN) ∧
    (∀ a : Interval, Timestamp.END.addInterval p a = .ok Timestamp.END) := by
  refine ⟨?_, fun _ => rfl, fun _ => rfl⟩
  intro t h
  change t.addInterval p ⟨0, 0, 0⟩ = .ok t
  rw [addInterval_finite p h]
  simp only [Timestamp.monthStep, Timestamp.dayStep, ne_eq, not_true_eq_false,
    if_false, Res.bind_ok]
  rw [wrap64_valid h, if_pos ((isValidTimestamp_iff _).2 h)]

theorem addTime_eq (p : Profile) {t : Timestamp} (h : TsRange t.v) (us : Int) :
    t.addInterval p ⟨0, 0, us⟩ =
      if isValidTimestamp (wrap64 (t.v + us)) then .ok ⟨wrap64 (t.v + us)⟩ else .err .invalid := by
  rw [addInterval_finite p h]
  simp only [Timestamp.monthStep, Timestamp.dayStep, ne_eq, not_true_eq_false, if_false, Res.bind_ok]

/-- **C12** (microsecond step, when the exact sum fits 64 bits). Missing: sums outside 64 bits, for
which the step can wrap around into the valid range (see `C12_violated`). -/
theorem C12_time_step_partial (p : Profile) (t : Timestamp) (us : Int) (h : TsRange t.v)
    (hs : In64 (t.v + us)) :
    (TsRange (t.v + us) → t.addInterval p ⟨0, 0, us⟩ = .ok ⟨t.v + us⟩) ∧
    (¬ TsRange (t.v + us) → (t.addInterval p ⟨0, 0, us⟩).IsErr) := by
  rw [addTime_eq p h, wrap64_of_in hs]
  constructor
  · intro hx; rw [if_pos ((isValidTimestamp_iff _).2 hx)]
  · intro hx; rw [if_neg (fun hy => hx ((isValidTimestamp_iff _).1 hy))]; exact ⟨_, rfl⟩

/-- **C12 is violated** when the sum overflows 64 bits: a timestamp in the year 294276 plus a
positive duration of about 292000 years is `Ok` with a timestamp in 1999. -/
theorem C12_violated (p : Profile) :
    TsRange 9223371331199999999 ∧
    ¬ TsRange (9223371331199999999 + 9223372036854775807) ∧
    (⟨9223371331199999999⟩ : Timestamp).addInterval p ⟨0, 0, 9223372036854775807⟩ =
      .ok ⟨-705654775810⟩ := by
  refine ⟨by decide, by decide, ?_⟩
  cases p <;> decide

example : TsRange 633744000000000 ∧ In64 (633744000000000 + -5) ∧
    (⟨633744000000000⟩ : Timestamp).addInterval .debug ⟨1, -1, -5⟩ = .ok ⟨636163199999995⟩ := by decide

/-! ## C13 -/

/-- **C13.** Subtracting an interval is adding its negation; if the negation does not exist
(a component is the most negative integer) it is an `Overflow` error. -/
theorem C13_sub_is_add_neg (p : Profile) (t : Timestamp) (a : Interval) :
    t.subInterval p a = if In32 (-a.month) ∧ In32 (-a.day) ∧ In64 (-a.time)
      then t.addInterval p ⟨-a.month, -a.day, -a.time⟩ else .err .overflow := by
  unfold Timestamp.subInterval
  rw [(C15_exact_or_overflow a a).2.2]
  split <;> rfl

/-- **C13.** Adding and then subtracting a duration (no months, no days) returns the original
timestamp whenever the addition succeeds. -/
theorem C13_add_then_sub (p : Profile) (t r : Timestamp) (us : Int) (h : TsRange t.v)
    (hu : In64 us) (hneg : us ≠ -9223372036854775808)
    (ha : t.addInterval p ⟨0, 0, us⟩ = .ok r) : r.subInterval p ⟨0, 0, us⟩ = .ok t := by
  have hr : TsRange r.v := by
    rcases C12_ok_valid p t r _ ha with hr | ⟨hi, -⟩
    · exact hr
    · rw [notInf h] at hi; cases hi
  rw [addTime_eq p h] at ha
  split at ha
  · injection ha with ha
    subst ha
    have h' := (tsRange_iff _).1 h
    unfold In64 at hu
    rw [C13_sub_is_add_neg, if_pos (by unfold In32 In64; simp only; omega)]
    simp only [Int.neg_zero]
    rw [addTime_eq p hr]
    have e : wrap64 (wrap64 (t.v + us) + -us) = t.v := by unfold wrap64; omega
    simp only [e]
    rw [if_pos ((isValidTimestamp_iff _).2 h)]
  · cases ha

example : TsRange 0 ∧ (⟨0⟩ : Timestamp).addInterval .debug ⟨0, 0, 5⟩ = .ok ⟨5⟩ ∧
    (⟨5⟩ : Timestamp).subInterval .debug ⟨0, 0, 5⟩ = .ok ⟨0⟩ ∧
    (⟨5⟩ : Timestamp).subInterval .debug ⟨-2147483648, 0, 5⟩ = .err .overflow := by decide

/-! ## C14 -/

/-- **C14** (when the exact difference fits 64 bits). The difference of two valid timestamps has no
months, the right length, less than 24 hours of time with the sign of the days, and adding it back
gives the first timestamp. Missing: pairs more than 2^63 microseconds apart, for which the property
is false (see `C14_violated`). -/
theorem C14_partial (p : Profile) (a b : Timestamp) (ha : TsRange a.v) (hb : TsRange b.v)
    (hd : In64 (a.v - b.v)) :
    ∃ r, a.subTimestamp p b = .ok r ∧ r.month = 0 ∧ r.day * dayMicros + r.time = a.v - b.v ∧
      -dayMicros < r.time ∧ r.time < dayMicros ∧ SameSign r.day r.time ∧
      b.addInterval p r = .ok a := by
  have ha' := (tsRange_iff _).1 ha
  have hb' := (tsRange_iff _).1 hb
  have hq : wholeDays (a.v - b.v) = (a.v - b.v).tdiv 86400000000 := rfl
  have htd := tdiv_or (a.v - b.v) 86400000000
  unfold In64 at hd
  obtain ⟨r, e, wf, m, l, t1, t2, s, -⟩ := C16_justify_hours p ⟨0, 0, a.v - b.v⟩
    ⟨by unfold In32; simp only; omega, by unfold In32; simp only; omega, hd⟩
    (by simp only; rw [hq]; unfold In32; omega)
  obtain ⟨rm, rd, rt⟩ := r
  simp only at m l t1 t2 s wf
  subst m
  unfold spanMicros at l
  have hl : rd * 86400000000 + rt = a.v - b.v := by unfold dayMicros at l; omega
  refine ⟨⟨0, rd, rt⟩, ?_, rfl, ?_, t1, t2, s, ?_⟩
  · unfold Timestamp.subTimestamp
    rw [notInf ha, notInf hb]
    simp only [Bool.or_self, Bool.false_eq_true, if_false]
    rw [chk64_ok hd]
    exact e
  · unfold dayMicros; simp only; omega
  · unfold dayMicros SameSign at *
    have hmid : TsRange (b.v + rd * 86400000000) := by rw [tsRange_iff]; omega
    have hday : Timestamp.dayStep p b.v rd = .ok (b.v + rd * 86400000000) := by
      unfold Timestamp.dayStep
      split
      · exact (addDays_spec p (n := rd) hb wf.2.1 ⟨fun _ => by omega, fun _ => by omega⟩).1 hmid
      · rename_i hz
        have : rd = 0 := by omega
        subst this; simp
    rw [addInterval_finite p hb]
    simp only [Timestamp.monthStep, ne_eq, not_true_eq_false, if_false, Res.bind_ok, hday]
    rw [show b.v + rd * 86400000000 + rt = a.v by omega, wrap64_of_in (by omega),
      if_pos ((isValidTimestamp_iff _).2 ha)]

/-- **C14.** The difference with an infinite timestamp is an error. -/
theorem C14_infinite (p : Profile) (a b : Timestamp) (h : a.isInfinite = true ∨ b.isInfinite = true) :
    (a.subTimestamp p b).IsErr := by
  unfold Timestamp.subTimestamp
  rw [if_pos (by simpa using h)]
  exact ⟨_, rfl⟩

/-- **C14 is violated** for far-apart timestamps: panic in debug builds; in release builds the
difference of a later and an earlier timestamp is a negative interval. -/
theorem C14_violated :
    TsRange 9223371331199999999 ∧ TsRange (-211813488000000000) ∧
    (⟨9223371331199999999⟩ : Timestamp).subTimestamp .debug ⟨-211813488000000000⟩ = .panic ∧
    (⟨9223371331199999999⟩ : Timestamp).subTimestamp .release ⟨-211813488000000000⟩ =
      .ok ⟨0, -104300454, -28909551617⟩ := by
  decide

example : TsRange 633744000000001 ∧ TsRange (-1) ∧ In64 (633744000000001 - -1) ∧
    (⟨-1⟩ : Timestamp).subTimestamp .debug ⟨633744000000001⟩ = .ok ⟨0, -7335, -2⟩ := by decide

end Props
