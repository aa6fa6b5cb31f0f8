import Verif.Lemmas.DayWrap
import Verif.Props.Times
import Verif.Props.MixedArith

/-!
# What the arithmetic does where it overflows

C11, C12, C14, C21, C57 are false for some arguments. Here is what the code does for exactly these.
-/

namespace Props
open Pg Spec

/-- **C11, release builds, complete.** Adding `n` days is exact, or an error if the result is out of range,
unless the target is 32045 to 88193 days before the first supported day: then the result is a valid
timestamp 88192 or 88193 days after the target. -/
theorem C11_release (t : Timestamp) (n : Int) (h : TsRange t.v) (hn : In32 n) :
    (TsRange (t.v + n * dayMicros) → t.addInterval .release ⟨0, n, 0⟩ = .ok ⟨t.v + n * dayMicros⟩) ∧
    (¬ TsRange (t.v + n * dayMicros) →
      ¬ (-88193 ≤ targetDay t.v n ∧ targetDay t.v n ≤ -32045) → (t.addInterval .release ⟨0, n, 0⟩).IsErr) ∧
    (-88193 ≤ targetDay t.v n ∧ targetDay t.v n ≤ -32045 →
      ∃ k r, (k = 88192 ∨ k = 88193) ∧ t.addInterval .release ⟨0, n, 0⟩ = .ok r ∧ TsRange r.v ∧
        r.v = t.v + (n + k) * dayMicros) := by
  have h' := (tsRange_iff _).1 h
  by_cases hw : -120296 ≤ targetDay t.v n ∧ targetDay t.v n ≤ -32045
  · have hnot : ¬ TsRange (t.v + n * dayMicros) := by
      rw [targetDay_eq] at hw
      rw [tsRange_iff]; unfold dayMicros; omega
    have hz : n ≠ 0 := by
      rintro rfl
      rw [targetDay_eq] at hw; omega
    obtain ⟨h1, h2⟩ := addDays_wrapped h hn hw
    have e : ∀ r, TsRange r → Timestamp.addDays .release t.v n = .ok r →
        t.addInterval .release ⟨0, n, 0⟩ = .ok ⟨r⟩ := by
      intro r hr he
      have hr' := (tsRange_iff _).1 hr
      rw [addInterval_finite .release h]
      simp only [Timestamp.monthStep, Timestamp.dayStep, ne_eq, hz, not_false_eq_true, if_true,
        not_true_eq_false, if_false, he, Res.bind_ok]
      rw [Int.add_zero, wrap64_of_in (by omega), if_pos ((isValidTimestamp_iff _).2 hr)]
    refine ⟨fun hx => absurd hx hnot, fun _ hk => ?_, fun hk => ?_⟩
    · obtain ⟨x, hx⟩ := h2 (by omega)
      rw [addInterval_finite .release h]
      simp only [Timestamp.monthStep, Timestamp.dayStep, ne_eq, hz, not_false_eq_true, if_true,
        not_true_eq_false, if_false, hx, Res.bind_ok, Res.bind_err]
      exact ⟨x, rfl⟩
    · obtain ⟨k, hk, he, hr⟩ := h1 hk.1
      exact ⟨k, _, hk, e _ hr he, hr, rfl⟩
  · obtain ⟨h1, h2⟩ := C11_partial .release t n h hn nofun (fun _ => hw)
    exact ⟨h1, fun hx _ => h2 hx, fun hk => absurd ⟨by omega, hk.2⟩ hw⟩

/-- **C11, debug builds, complete.** A debug build panics exactly if the target is one of the 120296 days
before the first supported day. -/
theorem C11_debug (t : Timestamp) (n : Int) (h : TsRange t.v) (hn : In32 n) :
    (-120296 ≤ targetDay t.v n ∧ targetDay t.v n ≤ -1 → t.addInterval .debug ⟨0, n, 0⟩ = .panic) ∧
    (¬ (-120296 ≤ targetDay t.v n ∧ targetDay t.v n ≤ -1) →
      (TsRange (t.v + n * dayMicros) → t.addInterval .debug ⟨0, n, 0⟩ = .ok ⟨t.v + n * dayMicros⟩) ∧
      (¬ TsRange (t.v + n * dayMicros) → (t.addInterval .debug ⟨0, n, 0⟩).IsErr)) := by
  refine ⟨fun hw => ?_, fun hw => C11_partial .debug t n h hn (fun _ => hw) nofun⟩
  have h' := (tsRange_iff _).1 h
  have hz : n ≠ 0 := by
    rintro rfl
    rw [targetDay_eq] at hw; omega
  rw [addInterval_finite .debug h]
  simp only [Timestamp.monthStep, Timestamp.dayStep, ne_eq, hz, not_false_eq_true, if_true,
    not_true_eq_false, if_false, addDays_panics h hn hw, Res.bind_ok]
  rfl

example : TsRange 0 ∧ In32 (-2500000) ∧ targetDay 0 (-2500000) = -48455 ∧ targetDay 0 (-2540000) = -88455 ∧
    (⟨0⟩ : Timestamp).addInterval .release ⟨0, -2500000, 0⟩ = .ok ⟨(-2500000 + 88193) * dayMicros⟩ ∧
    (⟨0⟩ : Timestamp).addInterval .release ⟨0, -2540000, 0⟩ = .err .invalid := by decide

/-- **C12, microsecond step, complete.** The sum is taken modulo 2^64 (in both builds), and what comes out is
the result if it is a valid timestamp, and an error otherwise. -/
theorem C12_time_step_exact (p : Profile) (t : Timestamp) (us : Int) (h : TsRange t.v) (hu : In64 us) :
    (∀ r : Timestamp, t.addInterval p ⟨0, 0, us⟩ = .ok r ↔
      TsRange r.v ∧ (r.v = t.v + us ∨ r.v = t.v + us - 2 ^ 64 ∨ r.v = t.v + us + 2 ^ 64)) ∧
    ((∀ r : Timestamp, t.addInterval p ⟨0, 0, us⟩ ≠ .ok r) → (t.addInterval p ⟨0, 0, us⟩).IsErr) := by
  have h' := (tsRange_iff _).1 h
  unfold In64 at hu
  rw [addTime_eq p h]
  have hw : wrap64 (t.v + us) = t.v + us ∧ -9223372036854775808 ≤ t.v + us ∧ t.v + us ≤ 9223372036854775807 ∨
      wrap64 (t.v + us) = t.v + us - 18446744073709551616 ∧ 9223372036854775807 < t.v + us ∨
      wrap64 (t.v + us) = t.v + us + 18446744073709551616 ∧ t.v + us < -9223372036854775808 := by
    unfold wrap64; omega
  constructor
  · rintro ⟨r⟩
    by_cases hv : isValidTimestamp (wrap64 (t.v + us)) = true
    · rw [if_pos hv]
      have hv' := (tsRange_iff _).1 ((isValidTimestamp_iff _).1 hv)
      simp only [Res.ok.injEq, Timestamp.mk.injEq]
      constructor
      · rintro rfl
        exact ⟨(isValidTimestamp_iff _).1 hv, by omega⟩
      · rintro ⟨hr, hr2⟩
        have hr := (tsRange_iff _).1 hr
        omega
    · rw [if_neg hv]
      have hv' : ¬ TsRange (wrap64 (t.v + us)) := fun hx => hv ((isValidTimestamp_iff _).2 hx)
      rw [tsRange_iff] at hv'
      simp only [reduceCtorEq, false_iff]
      rintro ⟨hr, hr2⟩
      have hr := (tsRange_iff _).1 hr
      omega
  · intro hx
    by_cases hv : isValidTimestamp (wrap64 (t.v + us)) = true
    · rw [if_pos hv] at hx
      exact absurd rfl (hx _)
    · rw [if_neg hv]; exact ⟨_, rfl⟩

/-- Forward and backward, the sum that wraps around can be valid again. -/
example : TsRange 9223371331199999999 ∧ TsRange (-211813488000000000) ∧
    (⟨9223371331199999999⟩ : Timestamp).addInterval .debug ⟨0, 0, 9223372036854775807⟩ =
      .ok ⟨9223371331199999999 + 9223372036854775807 - 2 ^ 64⟩ ∧
    (⟨-211813488000000000⟩ : Timestamp).addInterval .debug ⟨0, 0, -9223372036854775808⟩ =
      .ok ⟨-211813488000000000 + -9223372036854775808 + 2 ^ 64⟩ := by decide

theorem release64 (x : Int) : chk64 .release x = .ok (wrap64 x) := by
  unfold chk64
  split
  · rename_i h; rw [wrap64_of_in h]
  · rfl

theorem panic64 {x : Int} (h : ¬ In64 x) : chk64 .debug x = .panic := by
  unfold chk64; rw [if_neg h]

/-- The difference of two timestamps, as a release build computes it. -/
theorem sub_release (a b : Timestamp) (ha : TsRange a.v) (hb : TsRange b.v) (w : Int)
    (hw : w = wrap64 (a.v - b.v)) :
    ∃ r, a.subTimestamp .release b = .ok r ∧ r.month = 0 ∧ r.day * dayMicros + r.time = w ∧
      -dayMicros < r.time ∧ r.time < dayMicros ∧ SameSign r.day r.time := by
  have ha' := (tsRange_iff _).1 ha
  have hb' := (tsRange_iff _).1 hb
  have hq : wholeDays w = w.tdiv 86400000000 := rfl
  have htd := tdiv_or w 86400000000
  have hd : -9223372036854775808 ≤ w ∧ w ≤ 9223372036854775807 := by rw [hw]; unfold wrap64; omega
  obtain ⟨r, e, wf, m, l, t1, t2, s, -⟩ := C16_justify_hours .release ⟨0, 0, w⟩
    ⟨by unfold In32; simp only; omega, by unfold In32; simp only; omega, hd⟩
    (by simp only; rw [hq]; unfold In32; omega)
  refine ⟨r, ?_, m, ?_, t1, t2, s⟩
  · unfold Timestamp.subTimestamp
    rw [notInf ha, notInf hb]
    simp only [Bool.or_self, Bool.false_eq_true, if_false]
    rw [release64, ← hw]
    exact e
  · unfold spanMicros dayMicros at *
    simp only at l m
    omega

/-- **C14, complete.** Where the difference of two valid timestamps does not fit into 64 bits a debug build
panics, and a release build gives the justified form of a difference that is wrong by 2^64 microseconds. -/
theorem C14_overflow (a b : Timestamp) (ha : TsRange a.v) (hb : TsRange b.v) (hd : ¬ In64 (a.v - b.v)) :
    a.subTimestamp .debug b = .panic ∧
    ∃ r, a.subTimestamp .release b = .ok r ∧ r.month = 0 ∧
      r.day * dayMicros + r.time = a.v - b.v - (if b.v < a.v then 2 ^ 64 else -2 ^ 64) ∧
      -dayMicros < r.time ∧ r.time < dayMicros ∧ SameSign r.day r.time := by
  refine ⟨(C87_timestamp_panics a b ha hb).2.1.2 hd, ?_⟩
  have ha' := (tsRange_iff _).1 ha
  have hb' := (tsRange_iff _).1 hb
  unfold In64 at hd
  refine sub_release a b ha hb _ ?_
  unfold wrap64
  split <;> omega

example : TsRange 9223371331199999999 ∧ TsRange (-211813488000000000) ∧
    ¬ In64 (9223371331199999999 - -211813488000000000) ∧ ¬ In64 (-211813488000000000 - 9223371331199999999) := by
  decide

/-- **C57, difference of a timestamp and a date, complete.** As for C14. -/
theorem C57_timestamp_date_overflow (s : Timestamp) (d : Date) (h : TsRange s.v) (hd : DateRange d.v)
    (hlt : d.v < dayNumber ⟨294277, 1, 1⟩) (h64 : ¬ In64 (s.v - d.v * dayMicros)) :
    s.subDate .debug d = .panic ∧
    ∃ r, s.subDate .release d = .ok r ∧ r.month = 0 ∧
      r.day * dayMicros + r.time = s.v - d.v * dayMicros - (if d.v * dayMicros < s.v then 2 ^ 64 else -2 ^ 64) ∧
      -dayMicros < r.time ∧ r.time < dayMicros ∧ SameSign r.day r.time := by
  rw [show dayNumber ⟨294277, 1, 1⟩ = 106751983 from by decide] at hlt
  have key : ∀ p, Timestamp.ofDate p d = .ok ⟨d.v * dayMicros⟩ ∧ TsRange (d.v * dayMicros) := by
    intro p
    rcases ofDate_cases p d hd with ⟨hc, e, hr⟩ | ⟨hc, k, e⟩
    · exact ⟨e, hr⟩
    · omega
  obtain ⟨h1, h2⟩ := C14_overflow s ⟨d.v * dayMicros⟩ h (key .debug).2 h64
  unfold Timestamp.subDate
  rw [(key .debug).1, (key .release).1]
  exact ⟨h1, h2⟩

/-- The last instant minus the first day. -/
example : TsRange 9223371331199999999 ∧ DateRange (-2451545) ∧ -2451545 < dayNumber ⟨294277, 1, 1⟩ ∧
    ¬ In64 (9223371331199999999 - -2451545 * dayMicros) := by decide

/-- **C21, complete.** Of an interval whose time is at most a day above the smallest 64-bit number the time
of day is wrong: a debug build panics, a release build gives a time from 23:59:59.999999 to 47:59:59.999998,
except that it is right for exactly a day above the smallest number. -/
theorem C21_overflow (a : Interval) (h : In64 a.time) (hlow : a.time < -(9223372036854775807 - dayMicros)) :
    Time.ofInterval .debug a = .panic ∧
    Time.ofInterval .release a = .ok (if a.time = -9223372036854775808 + dayMicros then ⟨a.time % dayMicros⟩
      else ⟨dayMicros - 1 + (2 ^ 64 + 1 + a.time) % dayMicros⟩) := by
  unfold In64 at h
  unfold dayMicros at *
  unfold Time.ofInterval
  rw [if_neg (by omega), if_pos (by omega), if_neg (by omega), if_pos (by omega)]
  constructor
  · by_cases hm : a.time = -9223372036854775808
    · rw [panic64 (by unfold In64; omega)]; rfl
    · rw [chk64_ok (by omega), Res.bind_ok, panic64 (by unfold In64; omega)]; rfl
  · simp only [release64, Res.bind_ok, Res.pure_eq]
    split
    · rename_i he
      rw [he]; decide
    · have e1 : wrap64 (wrap64 (wrap64 (-a.time) + 86400000000) - 1) = 86400000000 - 1 - a.time - 18446744073709551616 := by
        unfold wrap64; omega
      rw [e1]
      have ht := tdiv_or (86400000000 - 1 - a.time - 18446744073709551616) 86400000000
      generalize tdiv (86400000000 - 1 - a.time - 18446744073709551616) 86400000000 = q at *
      have e2 : wrap64 (q * 86400000000) = q * 86400000000 := wrap64_of_in (by omega)
      rw [e2]
      simp only [Res.ok.injEq, Time.mk.injEq]
      unfold wrap64; omega

example : In64 (-9223372000000000000) ∧ -9223372000000000000 < -(9223372036854775807 - dayMicros) ∧
    -9223372000000000000 ≠ -9223372036854775808 + dayMicros := by decide

end Props
