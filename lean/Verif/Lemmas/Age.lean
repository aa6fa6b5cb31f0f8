import Verif.Lemmas.TsArith
import Verif.Lemmas.IntervalFields

namespace Pg
open Spec Timestamp

theorem borrow_one32 (p : Profile) {unit lo hi : Int} (hu : 0 < unit ∧ unit ≤ 1000000)
    (hl : -unit ≤ lo ∧ lo ≤ 1000000) (hh : -1000000 ≤ hi ∧ hi ≤ 1000000) :
    borrow p chk32 unit 4 lo hi = .ok (if lo < 0 then (lo + unit, hi - 1) else (lo, hi)) := by
  by_cases h : lo < 0
  · simp only [borrow, if_pos h]
    rw [chk32_ok (by omega), Res.bind_ok, chk32_ok (by omega), Res.bind_ok, if_neg (by omega)]
  · simp only [borrow, if_neg h]

theorem borrow_one64 (p : Profile) {unit lo hi : Int} (hu : 0 < unit ∧ unit ≤ 1000000)
    (hl : -unit ≤ lo ∧ lo ≤ 1000000) (hh : -1000000 ≤ hi ∧ hi ≤ 1000000) :
    borrow p chk64 unit 4 lo hi = .ok (if lo < 0 then (lo + unit, hi - 1) else (lo, hi)) := by
  by_cases h : lo < 0
  · simp only [borrow, if_pos h]
    rw [chk64_ok (by omega), Res.bind_ok, chk32_ok (by omega), Res.bind_ok, if_neg (by omega)]
  · simp only [borrow, if_neg h]

/-- Months, days and microseconds of the age of a later over an earlier reading. -/
structure AgeOf (c1 : YMD) (k1 : Clock) (c2 : YMD) (k2 : Clock) (months days us : Int) : Prop where
  us_eq : us = k1.micros - k2.micros + (if k1.micros < k2.micros then 86400000000 else 0)
  days_eq : days = c1.d - c2.d - (if k1.micros < k2.micros then 1 else 0) +
    (if c1.d - c2.d - (if k1.micros < k2.micros then 1 else 0) < 0 then monthDays c2.y c2.m else 0)
  months_eq : months = 12 * (c1.y - c2.y) + (c1.m - c2.m) -
    (if c1.d - c2.d - (if k1.micros < k2.micros then 1 else 0) < 0 then 1 else 0)

set_option maxHeartbeats 2000000 in
theorem age_core (p : Profile) {c1 c2 : YMD} {k1 k2 : Clock} (r1 : c1.Real) (r2 : c2.Real)
    (q1 : k1.Real) (q2 : k2.Real) (y1 : -4713 ≤ c1.y ∧ c1.y ≤ 294277)
    (y2 : -4713 ≤ c2.y ∧ c2.y ≤ 294277)
    (hle : ¬ (dtLt c1 k1 c2 k2)) :
    ∃ d x, ageDiff p (tmOf c1 k1, k1.us) (tmOf c2 k2, k2.us) = .ok d ∧
      ageDiff p (tmOf c2 k2, k2.us) (tmOf c1 k1, k1.us) = .ok ⟨-d.year, -d.mon, -d.mday, -d.hour, -d.min, -d.sec, -d.fsec⟩ ∧
      ageFlip p true ⟨-d.year, -d.mon, -d.mday, -d.hour, -d.min, -d.sec, -d.fsec⟩ = .ok d ∧
      ageBorrow p c2.y c2.m d = .ok x ∧
      0 ≤ x.fsec ∧ x.fsec < 1000000 ∧ 0 ≤ x.sec ∧ x.sec < 60 ∧ 0 ≤ x.min ∧ x.min < 60 ∧
      0 ≤ x.hour ∧ x.hour < 24 ∧ 0 ≤ x.mday ∧ x.mday < 31 ∧ 0 ≤ x.mon ∧ x.mon < 12 ∧
      0 ≤ x.year ∧ x.year ≤ 300000 ∧
      AgeOf c1 k1 c2 k2 (x.year * 12 + x.mon) x.mday
        (((x.hour * 60 + x.min) * 60 + x.sec) * 1000000 + x.fsec) := by
  have b1 := real_bounds r1
  have b2 := real_bounds r2
  have hm2 := r2.2.2.2
  have hmb := monthDays_bounds c2.y c2.m
  unfold Clock.Real at q1 q2
  refine ⟨⟨c1.y - c2.y, c1.m - c2.m, c1.d - c2.d, k1.h - k2.h, k1.mi - k2.mi, k1.s - k2.s,
    k1.us - k2.us⟩, ?_⟩
  have hd : ageDiff p (tmOf c1 k1, k1.us) (tmOf c2 k2, k2.us) =
      .ok ⟨c1.y - c2.y, c1.m - c2.m, c1.d - c2.d, k1.h - k2.h, k1.mi - k2.mi, k1.s - k2.s,
        k1.us - k2.us⟩ := by
    unfold ageDiff tmOf
    simp only
    rw [chk64_ok (by omega), Res.bind_ok, chk32_ok (by omega), Res.bind_ok, chk32_ok (by omega),
      Res.bind_ok, chk32_ok (by omega), Res.bind_ok, chk32_ok (by omega), Res.bind_ok,
      chk32_ok (by omega), Res.bind_ok, chk32_ok (by omega), Res.bind_ok]
    rfl
  have hd2 : ageDiff p (tmOf c2 k2, k2.us) (tmOf c1 k1, k1.us) =
      .ok ⟨-(c1.y - c2.y), -(c1.m - c2.m), -(c1.d - c2.d), -(k1.h - k2.h), -(k1.mi - k2.mi),
        -(k1.s - k2.s), -(k1.us - k2.us)⟩ := by
    unfold ageDiff tmOf
    simp only
    rw [chk64_ok (by omega), Res.bind_ok, chk32_ok (by omega), Res.bind_ok, chk32_ok (by omega),
      Res.bind_ok, chk32_ok (by omega), Res.bind_ok, chk32_ok (by omega), Res.bind_ok,
      chk32_ok (by omega), Res.bind_ok, chk32_ok (by omega), Res.bind_ok]
    simp only [Int.neg_sub, Res.pure_eq]
  have hf : ageFlip p true ⟨-(c1.y - c2.y), -(c1.m - c2.m), -(c1.d - c2.d), -(k1.h - k2.h),
        -(k1.mi - k2.mi), -(k1.s - k2.s), -(k1.us - k2.us)⟩ =
      .ok ⟨c1.y - c2.y, c1.m - c2.m, c1.d - c2.d, k1.h - k2.h, k1.mi - k2.mi, k1.s - k2.s,
        k1.us - k2.us⟩ := by
    unfold ageFlip
    simp only [if_true]
    rw [chk64_ok (by omega), Res.bind_ok, chk32_ok (by omega), Res.bind_ok, chk32_ok (by omega),
      Res.bind_ok, chk32_ok (by omega), Res.bind_ok, chk32_ok (by omega), Res.bind_ok,
      chk32_ok (by omega), Res.bind_ok, chk32_ok (by omega), Res.bind_ok]
    simp only [Int.neg_neg, Res.pure_eq]
  have hb : ∃ x, ageBorrow p c2.y c2.m ⟨c1.y - c2.y, c1.m - c2.m, c1.d - c2.d, k1.h - k2.h,
      k1.mi - k2.mi, k1.s - k2.s, k1.us - k2.us⟩ = .ok x ∧
      0 ≤ x.fsec ∧ x.fsec < 1000000 ∧ 0 ≤ x.sec ∧ x.sec < 60 ∧ 0 ≤ x.min ∧ x.min < 60 ∧
      0 ≤ x.hour ∧ x.hour < 24 ∧ 0 ≤ x.mday ∧ x.mday < 31 ∧ 0 ≤ x.mon ∧ x.mon < 12 ∧
      0 ≤ x.year ∧ x.year ≤ 300000 ∧
      AgeOf c1 k1 c2 k2 (x.year * 12 + x.mon) x.mday
        (((x.hour * 60 + x.min) * 60 + x.sec) * 1000000 + x.fsec) := by
    unfold ageBorrow
    simp only
    rw [borrow_one64 p (by omega) (by omega) (by omega), Res.bind_ok]
    obtain ⟨f, s, e1, e1'⟩ : ∃ f s, (if k1.us - k2.us < 0 then
        (k1.us - k2.us + 1000000, k1.s - k2.s - 1) else (k1.us - k2.us, k1.s - k2.s)) = (f, s) ∧
        ((k1.us - k2.us < 0 ∧ f = k1.us - k2.us + 1000000 ∧ s = k1.s - k2.s - 1) ∨
         (0 ≤ k1.us - k2.us ∧ f = k1.us - k2.us ∧ s = k1.s - k2.s)) := by
      split
      · exact ⟨_, _, rfl, .inl ⟨by omega, rfl, rfl⟩⟩
      · exact ⟨_, _, rfl, .inr ⟨by omega, rfl, rfl⟩⟩
    rw [e1]
    simp only
    rw [borrow_one32 p (by omega) (by omega) (by omega), Res.bind_ok]
    obtain ⟨s', mi, e2, e2'⟩ : ∃ s' mi, (if s < 0 then
        (s + 60, k1.mi - k2.mi - 1) else (s, k1.mi - k2.mi)) = (s', mi) ∧
        ((s < 0 ∧ s' = s + 60 ∧ mi = k1.mi - k2.mi - 1) ∨
         (0 ≤ s ∧ s' = s ∧ mi = k1.mi - k2.mi)) := by
      split
      · exact ⟨_, _, rfl, .inl ⟨by omega, rfl, rfl⟩⟩
      · exact ⟨_, _, rfl, .inr ⟨by omega, rfl, rfl⟩⟩
    rw [e2]
    simp only
    rw [borrow_one32 p (by omega) (by omega) (by omega), Res.bind_ok]
    obtain ⟨mi', h, e3, e3'⟩ : ∃ mi' h, (if mi < 0 then
        (mi + 60, k1.h - k2.h - 1) else (mi, k1.h - k2.h)) = (mi', h) ∧
        ((mi < 0 ∧ mi' = mi + 60 ∧ h = k1.h - k2.h - 1) ∨
         (0 ≤ mi ∧ mi' = mi ∧ h = k1.h - k2.h)) := by
      split
      · exact ⟨_, _, rfl, .inl ⟨by omega, rfl, rfl⟩⟩
      · exact ⟨_, _, rfl, .inr ⟨by omega, rfl, rfl⟩⟩
    rw [e3]
    simp only
    rw [borrow_one32 p (by omega) (by omega) (by omega), Res.bind_ok]
    obtain ⟨h', d, e4, e4'⟩ : ∃ h' d, (if h < 0 then
        (h + 24, c1.d - c2.d - 1) else (h, c1.d - c2.d)) = (h', d) ∧
        ((h < 0 ∧ h' = h + 24 ∧ d = c1.d - c2.d - 1) ∨
         (0 ≤ h ∧ h' = h ∧ d = c1.d - c2.d)) := by
      split
      · exact ⟨_, _, rfl, .inl ⟨by omega, rfl, rfl⟩⟩
      · exact ⟨_, _, rfl, .inr ⟨by omega, rfl, rfl⟩⟩
    rw [e4]
    simp only
    have hday : (h < 0 ↔ k1.micros < k2.micros) ∧
        ((h' * 60 + mi') * 60 + s') * 1000000 + f =
          k1.micros - k2.micros + (if k1.micros < k2.micros then 86400000000 else 0) := by
      have hh : (h < 0 ↔ k1.micros < k2.micros) := by
        unfold Clock.micros; omega
      refine ⟨hh, ?_⟩
      split
      · rename_i hc
        have := hh.2 hc
        unfold Clock.micros; omega
      · rename_i hc
        have : ¬ h < 0 := fun x => hc (hh.1 x)
        unfold Clock.micros; omega
    have hdd : d = c1.d - c2.d - (if k1.micros < k2.micros then 1 else 0) := by
      split
      · rename_i hc
        have := hday.1.2 hc
        omega
      · rename_i hc
        have : ¬ h < 0 := fun x => hc (hday.1.1 x)
        omega
    have hlen : ageMonthLen d c2.y c2.m = .ok (if d < 0 then monthDays c2.y c2.m else 0) := by
      unfold ageMonthLen
      split
      · rw [daysOfMonth_eq _ _ b2.1 b2.2.1]
      · rfl
    rw [hlen, Res.bind_ok]
    obtain ⟨d', mo, e5, e5'⟩ : ∃ d' mo, borrow p chk32 (if d < 0 then monthDays c2.y c2.m else 0) 4 d
        (c1.m - c2.m) = .ok (d', mo) ∧
        ((d < 0 ∧ d' = d + monthDays c2.y c2.m ∧ mo = c1.m - c2.m - 1) ∨
         (0 ≤ d ∧ d' = d ∧ mo = c1.m - c2.m)) := by
      by_cases hc : d < 0
      · rw [if_pos hc, borrow_one32 p (by omega) (by omega) (by omega), if_pos hc]
        exact ⟨_, _, rfl, .inl ⟨hc, rfl, rfl⟩⟩
      · refine ⟨d, c1.m - c2.m, ?_, .inr ⟨by omega, rfl, rfl⟩⟩
        simp only [borrow, if_neg hc]
    rw [e5]
    simp only [Res.bind_ok]
    rw [borrow_one32 p (by omega) (by omega) (by omega), Res.bind_ok]
    obtain ⟨mo', y, e6, e6'⟩ : ∃ mo' y, (if mo < 0 then
        (mo + 12, c1.y - c2.y - 1) else (mo, c1.y - c2.y)) = (mo', y) ∧
        ((mo < 0 ∧ mo' = mo + 12 ∧ y = c1.y - c2.y - 1) ∨
         (0 ≤ mo ∧ mo' = mo ∧ y = c1.y - c2.y)) := by
      split
      · exact ⟨_, _, rfl, .inl ⟨by omega, rfl, rfl⟩⟩
      · exact ⟨_, _, rfl, .inr ⟨by omega, rfl, rfl⟩⟩
    rw [e6]
    have hord : 0 ≤ y := by
      have hk : k1.micros < k2.micros → k1.lt k2 := by
        unfold Clock.micros Clock.lt; omega
      have heq : c1.y = c2.y → c1.m = c2.m → c1.d = c2.d → c1 = c2 := by
        intro a b c
        obtain ⟨u, v, w⟩ := c1
        obtain ⟨u', v', w'⟩ := c2
        simp only at a b c
        rw [a, b, c]
      unfold dtLt YMD.lt at hle
      have n1 : ¬ (c1.y < c2.y) := fun z => hle (.inl (.inl z))
      have n2 : c1.y = c2.y → ¬ (c1.m < c2.m) := fun z w => hle (.inl (.inr ⟨z, .inl w⟩))
      have n3 : c1.y = c2.y → c1.m = c2.m → ¬ (c1.d < c2.d) :=
        fun z w v => hle (.inl (.inr ⟨z, .inr ⟨w, v⟩⟩))
      have n4 : c1.y = c2.y → c1.m = c2.m → c1.d = c2.d → ¬ (k1.micros < k2.micros) :=
        fun z w v t => hle (.inr ⟨heq z w v, hk t⟩)
      have n5 : d = c1.d - c2.d - 1 → k1.micros < k2.micros := by
        intro z
        apply hday.1.1
        omega
      by_cases z1 : c1.y = c2.y
      · by_cases z2 : c1.m = c2.m
        · by_cases z3 : c1.d = c2.d
          · have := n4 z1 z2 z3
            have : ¬ d = c1.d - c2.d - 1 := fun z => this (n5 z)
            omega
          · have := n3 z1 z2; omega
        · have := n2 z1; omega
      · omega
    refine ⟨⟨y, mo', d', h', mi', s', f⟩, rfl, ?_⟩
    simp only
    clear hd hd2 hf e1 e2 e3 e4 e5 e6 hlen hle
    refine ⟨by omega, by omega, by omega, by omega, by omega, by omega, by omega, by omega,
      by omega, by omega, by omega, by omega, hord, by omega, ⟨hday.2, ?_, ?_⟩⟩
    · rw [← hdd]
      split <;> omega
    · rw [← hdd]
      split <;> omega
  obtain ⟨x, hx⟩ := hb
  exact ⟨x, hd, hd2, hf, hx⟩

end Pg
