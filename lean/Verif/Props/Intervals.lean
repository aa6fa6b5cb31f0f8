import Verif.Model.Types
import Verif.Spec.Interval

/-!
# Properties C15 – C19: interval arithmetic, justification and comparison
-/

namespace Props
open Pg Spec

theorem checked32_cases (x : Int) :
    (In32 x ∧ checked32 x = some x) ∨ (¬ In32 x ∧ checked32 x = none) := by
  by_cases h : In32 x
  · exact .inl ⟨h, if_pos h⟩
  · exact .inr ⟨h, if_neg h⟩
theorem checked64_cases (x : Int) :
    (In64 x ∧ checked64 x = some x) ∨ (¬ In64 x ∧ checked64 x = none) := by
  by_cases h : In64 x
  · exact .inl ⟨h, if_pos h⟩
  · exact .inr ⟨h, if_neg h⟩

/-! ## C15 -/

/-- **C15.** Addition, subtraction and negation are exact component by component when every
component fits, and an `Overflow` error otherwise. -/
theorem C15_exact_or_overflow (a b : Interval) :
    (a.addInterval b = if In32 (a.month + b.month) ∧ In32 (a.day + b.day) ∧ In64 (a.time + b.time)
      then .ok ⟨a.month + b.month, a.day + b.day, a.time + b.time⟩ else .err .overflow) ∧
    (a.subInterval b = if In32 (a.month - b.month) ∧ In32 (a.day - b.day) ∧ In64 (a.time - b.time)
      then .ok ⟨a.month - b.month, a.day - b.day, a.time - b.time⟩ else .err .overflow) ∧
    (a.negate = if In32 (-a.month) ∧ In32 (-a.day) ∧ In64 (-a.time)
      then .ok ⟨-a.month, -a.day, -a.time⟩ else .err .overflow) := by
  refine ⟨?_, ?_, ?_⟩
  · unfold Interval.addInterval
    rcases checked32_cases (a.month + b.month) with ⟨h1, e1⟩ | ⟨h1, e1⟩ <;>
    rcases checked32_cases (a.day + b.day) with ⟨h2, e2⟩ | ⟨h2, e2⟩ <;>
    rcases checked64_cases (a.time + b.time) with ⟨h3, e3⟩ | ⟨h3, e3⟩ <;>
    simp [e1, e2, e3, h1, h2, h3]
  · unfold Interval.subInterval
    rcases checked32_cases (a.month - b.month) with ⟨h1, e1⟩ | ⟨h1, e1⟩ <;>
    rcases checked32_cases (a.day - b.day) with ⟨h2, e2⟩ | ⟨h2, e2⟩ <;>
    rcases checked64_cases (a.time - b.time) with ⟨h3, e3⟩ | ⟨h3, e3⟩ <;>
    simp [e1, e2, e3, h1, h2, h3]
  · unfold Interval.negate
    rcases checked32_cases (-a.month) with ⟨h1, e1⟩ | ⟨h1, e1⟩ <;>
    rcases checked32_cases (-a.day) with ⟨h2, e2⟩ | ⟨h2, e2⟩ <;>
    rcases checked64_cases (-a.time) with ⟨h3, e3⟩ | ⟨h3, e3⟩ <;>
    simp [e1, e2, e3, h1, h2, h3]

theorem addInterval_eq_ok {a b c : Interval} :
    a.addInterval b = .ok c ↔ In32 c.month ∧ In32 c.day ∧ In64 c.time ∧
      c.month = a.month + b.month ∧ c.day = a.day + b.day ∧ c.time = a.time + b.time := by
  rw [(C15_exact_or_overflow a b).1]
  obtain ⟨m, d, t⟩ := c
  split
  · rename_i h
    simp only [Res.ok.injEq, Interval.mk.injEq]
    constructor
    · rintro ⟨rfl, rfl, rfl⟩; exact ⟨h.1, h.2.1, h.2.2, rfl, rfl, rfl⟩
    · rintro ⟨-, -, -, rfl, rfl, rfl⟩; exact ⟨rfl, rfl, rfl⟩
  · rename_i h
    constructor
    · intro h; cases h
    · rintro ⟨h1, h2, h3, rfl, rfl, rfl⟩; exact absurd ⟨h1, h2, h3⟩ h

theorem subInterval_eq_ok {a b c : Interval} :
    a.subInterval b = .ok c ↔ In32 c.month ∧ In32 c.day ∧ In64 c.time ∧
      c.month = a.month - b.month ∧ c.day = a.day - b.day ∧ c.time = a.time - b.time := by
  rw [(C15_exact_or_overflow a b).2.1]
  obtain ⟨m, d, t⟩ := c
  split
  · rename_i h
    simp only [Res.ok.injEq, Interval.mk.injEq]
    constructor
    · rintro ⟨rfl, rfl, rfl⟩; exact ⟨h.1, h.2.1, h.2.2, rfl, rfl, rfl⟩
    · rintro ⟨-, -, -, rfl, rfl, rfl⟩; exact ⟨rfl, rfl, rfl⟩
  · rename_i h
    constructor
    · intro h; cases h
    · rintro ⟨h1, h2, h3, rfl, rfl, rfl⟩; exact absurd ⟨h1, h2, h3⟩ h

theorem negate_eq_ok {a c : Interval} :
    a.negate = .ok c ↔ In32 c.month ∧ In32 c.day ∧ In64 c.time ∧
      c.month = -a.month ∧ c.day = -a.day ∧ c.time = -a.time := by
  rw [(C15_exact_or_overflow a a).2.2]
  obtain ⟨m, d, t⟩ := c
  split
  · rename_i h
    simp only [Res.ok.injEq, Interval.mk.injEq]
    constructor
    · rintro ⟨rfl, rfl, rfl⟩; exact ⟨h.1, h.2.1, h.2.2, rfl, rfl, rfl⟩
    · rintro ⟨-, -, -, rfl, rfl, rfl⟩; exact ⟨rfl, rfl, rfl⟩
  · rename_i h
    constructor
    · intro h; cases h
    · rintro ⟨h1, h2, h3, rfl, rfl, rfl⟩; exact absurd ⟨h1, h2, h3⟩ h

/-- **C15.** Commutativity, associativity where defined, unit, inverse laws. -/
theorem C15_group_laws (a b c : Interval) (ha : a.WF) (hb : b.WF) :
    a.addInterval b = b.addInterval a ∧
    a.addInterval Interval.zero = .ok a ∧
    (∀ x y, a.addInterval b = .ok x → b.addInterval c = .ok y →
      x.addInterval c = a.addInterval y) ∧
    (∀ n, a.negate = .ok n → n.negate = .ok a ∧ a.addInterval n = .ok Interval.zero) ∧
    (∀ n, b.negate = .ok n → a.subInterval b = a.addInterval n) ∧
    (∀ s, a.addInterval b = .ok s → s.subInterval b = .ok a) := by
  obtain ⟨ha1, ha2, ha3⟩ := ha
  obtain ⟨hb1, hb2, hb3⟩ := hb
  refine ⟨?_, ?_, ?_, ?_, ?_, ?_⟩
  · rw [(C15_exact_or_overflow a b).1, (C15_exact_or_overflow b a).1,
      Int.add_comm a.month, Int.add_comm a.day, Int.add_comm a.time]
  · rw [addInterval_eq_ok]; simp [Interval.zero, ha1, ha2, ha3]
  · intro x y hx hy
    rw [addInterval_eq_ok] at hx hy
    rw [(C15_exact_or_overflow x c).1, (C15_exact_or_overflow a y).1]
    obtain ⟨-, -, -, e1, e2, e3⟩ := hx
    obtain ⟨-, -, -, f1, f2, f3⟩ := hy
    rw [e1, e2, e3, f1, f2, f3]
    simp only [Int.add_assoc]
  · intro n hn
    rw [negate_eq_ok] at hn
    obtain ⟨-, -, -, e1, e2, e3⟩ := hn
    rw [negate_eq_ok, addInterval_eq_ok]
    simp only [Interval.zero, In32, In64] at *
    omega
  · intro n hn
    rw [negate_eq_ok] at hn
    obtain ⟨-, -, -, e1, e2, e3⟩ := hn
    rw [(C15_exact_or_overflow a b).2.1, (C15_exact_or_overflow a n).1, e1, e2, e3]
    simp only [Int.sub_eq_add_neg]
  · intro s hs
    rw [addInterval_eq_ok] at hs
    rw [subInterval_eq_ok]
    simp only [In32, In64] at *
    omega

example : (⟨2147483647, -5, 7⟩ : Interval).WF ∧
    (⟨2147483647, -5, 7⟩ : Interval).addInterval ⟨-1, 5, 3⟩ = .ok ⟨2147483646, 0, 10⟩ ∧
    (⟨2147483647, -5, 7⟩ : Interval).addInterval ⟨1, 5, 3⟩ = .err .overflow ∧
    (⟨-2147483648, 0, 0⟩ : Interval).negate = .err .overflow := by decide

/-! ## C16, C17, C18 -/

/-- Whole 24-hour days contained in a duration, rounded toward zero. -/
abbrev wholeDays (us : Int) : Int := us.tdiv dayMicros
/-- Whole 30-day months contained in a number of days, rounded toward zero. -/
abbrev wholeMonths (d : Int) : Int := d.tdiv 30

theorem timeModulo_eq (p : Profile) {t : Int} (h : In64 t) :
    ∃ l q, Interval.timeModulo p t 86400000000 = .ok (l, q) ∧ q = wholeDays t ∧
      l = t - q * 86400000000 ∧ -86400000000 < l ∧ l < 86400000000 ∧ SameSign t l ∧
      -106751992 ≤ q ∧ q ≤ 106751992 := by
  unfold In64 at h
  unfold Interval.timeModulo wholeDays SameSign dayMicros
  have := tdiv_or t 86400000000
  by_cases hq : t.tdiv 86400000000 = 0
  · refine ⟨t, _, ?_, rfl, ?_⟩
    · simp only [hq, ne_eq, not_true_eq_false, if_false]; rfl
    · rw [hq]; omega
  · refine ⟨t - t.tdiv 86400000000 * 86400000000, _, ?_, rfl, rfl, ?_⟩
    · simp only [ne_eq, hq, not_false_eq_true, if_true]
      rw [chk64_ok (by omega)]; simp only [Res.bind_ok]
      rw [chk64_ok (by omega)]; rfl
    · omega

theorem signDayTime_eq (p : Profile) (m : Int) {d t : Int} (hd : In32 d)
    (ht : -86400000000 < t ∧ t < 86400000000) :
    ∃ d' t', Interval.signDayTime p m d t = .ok ⟨m, d', t'⟩ ∧
      d' * 86400000000 + t' = d * 86400000000 + t ∧
      -86400000000 < t' ∧ t' < 86400000000 ∧ SameSign d' t' ∧
      (SameSign d t → d' = d ∧ t' = t) ∧
      (0 ≤ d → 0 ≤ d') ∧ (d ≤ 0 → d' ≤ 0) ∧ (d = 0 → t' = t) ∧ In32 d' ∧
      -(if d < 0 then -d else d) ≤ d' ∧ d' ≤ (if d < 0 then -d else d) := by
  unfold In32 at *
  unfold Interval.signDayTime SameSign
  by_cases h1 : d > 0 ∧ t < 0
  · rw [if_pos h1, chk64_ok (by omega), chk32_ok (by omega)]
    refine ⟨_, _, rfl, ?_⟩
    split <;> omega
  · rw [if_neg h1]
    by_cases h2 : d < 0 ∧ t > 0
    · rw [if_pos h2, chk64_ok (by omega), chk32_ok (by omega)]
      refine ⟨_, _, rfl, ?_⟩
      split <;> omega
    · rw [if_neg h2]
      refine ⟨_, _, rfl, ?_⟩
      split <;> omega

/-- `justify_hours` never panics. -/
theorem C16_no_panic (p : Profile) (a : Interval) (ha : a.WF) : (a.justifyHours p).NoPanic := by
  obtain ⟨l, q, e, -, -, h1, h2, -⟩ := timeModulo_eq p ha.2.2
  unfold Interval.justifyHours
  rw [e]; simp only [Res.bind_ok]
  obtain ⟨d', t', e', -⟩ := signDayTime_eq p a.month (wrap32_in (a.day + wrap32 q)) ⟨h1, h2⟩
  rw [e']; simp

/-- **C16.** `justify_hours`, when the day count fits: same length, same months, less than 24 hours
of time, days and time not of opposite sign, and idempotent. -/
theorem C16_justify_hours (p : Profile) (a : Interval) (ha : a.WF)
    (hd : In32 (a.day + wholeDays a.time)) :
    ∃ r, a.justifyHours p = .ok r ∧ r.WF ∧ r.month = a.month ∧
      spanMicros r.month r.day r.time = spanMicros a.month a.day a.time ∧
      -dayMicros < r.time ∧ r.time < dayMicros ∧ SameSign r.day r.time ∧
      r.justifyHours p = .ok r := by
  obtain ⟨l, q, e, eq, el, h1, h2, hs, q1, q2⟩ := timeModulo_eq p ha.2.2
  rw [← eq] at hd
  obtain ⟨d', t', e', k1, k2, k3, k4, -, -, -, -, k5, -, -⟩ := signDayTime_eq p a.month hd ⟨h1, h2⟩
  have he : a.justifyHours p = .ok ⟨a.month, d', t'⟩ := by
    unfold Interval.justifyHours
    rw [e]; simp only [Res.bind_ok]
    unfold In32 at hd
    rw [wrap32_of_in (by omega : _ ∧ _) (x := q), wrap32_of_in hd, e']
  refine ⟨_, he, ⟨ha.1, k5, ?_⟩, rfl, ?_, k2, k3, k4, ?_⟩
  · unfold In64; simp only; omega
  · unfold spanMicros dayMicros; simp only; omega
  · have ht : In64 t' := by unfold In64; omega
    obtain ⟨l2, q2', e2, eq2, el2, -⟩ := timeModulo_eq p ht
    have hz : q2' = 0 := by
      rw [eq2]; unfold wholeDays dayMicros; have := tdiv_or t' 86400000000; omega
    subst hz
    unfold Interval.justifyHours
    simp only
    rw [e2]; simp only [Res.bind_ok]
    unfold In32 at k5
    rw [wrap32_of_in (by omega) (x := 0), wrap32_of_in (by omega), show d' + 0 = d' by omega,
      show l2 = t' by omega]
    obtain ⟨d'', t'', e'', -, -, -, -, f, -⟩ := signDayTime_eq p a.month (d := d') k5 ⟨k2, k3⟩
    rw [e'', (f k4).1, (f k4).2]

example : (⟨1, -3, 100000000000⟩ : Interval).WF ∧ In32 (-3 + wholeDays 100000000000) ∧
    (⟨1, -3, 100000000000⟩ : Interval).justifyHours .debug = .ok ⟨1, -1, -72800000000⟩ := by decide

theorem signMonthDay_eq (p : Profile) (t : Int) {m d : Int} (hm : In32 m)
    (hd : -30 < d ∧ d < 30) :
    ∃ m' d', Interval.signMonthDay p m d t = .ok ⟨m', d', t⟩ ∧
      m' * 30 + d' = m * 30 + d ∧ -30 < d' ∧ d' < 30 ∧ SameSign m' d' ∧
      (SameSign m d → m' = m ∧ d' = d) ∧ In32 m' := by
  unfold In32 at *
  unfold Interval.signMonthDay SameSign
  by_cases h1 : m > 0 ∧ d < 0
  · rw [if_pos h1, chk32_ok (by omega), Res.bind_ok, chk32_ok (by omega)]
    refine ⟨_, _, rfl, ?_⟩
    omega
  · rw [if_neg h1]
    by_cases h2 : m < 0 ∧ d > 0
    · rw [if_pos h2, chk32_ok (by omega), Res.bind_ok, chk32_ok (by omega)]
      refine ⟨_, _, rfl, ?_⟩
      omega
    · rw [if_neg h2]
      refine ⟨_, _, rfl, ?_⟩
      omega

theorem wholeMonths_eq {d : Int} (h : In32 d) :
    -30 < d - wholeMonths d * 30 ∧ d - wholeMonths d * 30 < 30 ∧
      SameSign d (d - wholeMonths d * 30) ∧ -71582789 < wholeMonths d ∧ wholeMonths d < 71582789 := by
  unfold wholeMonths SameSign In32 at *
  have := tdiv_or d 30
  omega

/-- `justify_days` never panics. -/
theorem C17_no_panic (p : Profile) (a : Interval) (ha : a.WF) : (a.justifyDays p).NoPanic := by
  have hd := ha.2.1
  have h := wholeMonths_eq hd
  obtain ⟨m', d', e', -⟩ :=
    signMonthDay_eq p a.time (wrap32_in (a.month + wholeMonths a.day)) ⟨h.1, h.2.1⟩
  unfold In32 at hd
  unfold Interval.justifyDays
  unfold wholeMonths at *
  simp only
  rw [chk32_ok (by omega), Res.bind_ok, chk32_ok (by omega), Res.bind_ok, e']; simp

/-- **C17.** `justify_days`, when the month count fits: same length, same time, less than 30 days,
months and days not of opposite sign, idempotent. -/
theorem C17_justify_days (p : Profile) (a : Interval) (ha : a.WF)
    (hm : In32 (a.month + wholeMonths a.day)) :
    ∃ r, a.justifyDays p = .ok r ∧ r.WF ∧ r.time = a.time ∧
      spanMicros r.month r.day r.time = spanMicros a.month a.day a.time ∧
      -30 < r.day ∧ r.day < 30 ∧ SameSign r.month r.day ∧ r.justifyDays p = .ok r := by
  have hd := ha.2.1
  have h := wholeMonths_eq hd
  obtain ⟨m', d', e', k1, k2, k3, k4, -, k5⟩ := signMonthDay_eq p a.time hm ⟨h.1, h.2.1⟩
  have he : a.justifyDays p = .ok ⟨m', d', a.time⟩ := by
    unfold In32 at hd hm
    unfold Interval.justifyDays
    unfold wholeMonths at *
    simp only
    rw [chk32_ok (by omega), Res.bind_ok, chk32_ok (by omega), Res.bind_ok,
      wrap32_of_in hm, e']
  refine ⟨_, he, ⟨k5, ?_, ha.2.2⟩, rfl, ?_, k2, k3, k4, ?_⟩
  · unfold In32; simp only; omega
  · unfold spanMicros; simp only; rw [show m' * 30 + d' = a.month * 30 + a.day by omega]
  · obtain ⟨m2, d2, e2, -, -, -, -, f, -⟩ := signMonthDay_eq p a.time k5 (d := d') ⟨k2, k3⟩
    have hz : Int.tdiv d' 30 = 0 := by have := tdiv_or d' 30; omega
    unfold In32 at k5
    unfold Interval.justifyDays
    simp only [hz]
    rw [chk32_ok (by omega), Res.bind_ok, chk32_ok (by omega), Res.bind_ok,
      show m' + 0 = m' by omega, wrap32_of_in k5, show d' - 0 * 30 = d' by omega, e2,
      (f k4).1, (f k4).2]

example : (⟨2, -65, 5⟩ : Interval).WF ∧ In32 (2 + wholeMonths (-65)) ∧
    (⟨2, -65, 5⟩ : Interval).justifyDays .debug = .ok ⟨0, -5, 5⟩ ∧
    (⟨2, 65, 5⟩ : Interval).justifyDays .debug = .ok ⟨4, 5, 5⟩ ∧
    (⟨5, -65, 5⟩ : Interval).justifyDays .debug = .ok ⟨2, 25, 5⟩ := by decide

theorem signMonth_eq (p : Profile) {m d t : Int} (hm : In32 m) (hd : -30 < d ∧ d < 30)
    (ht : -86400000000 < t ∧ t < 86400000000) :
    ∃ m' d', Interval.signMonth p m d t = .ok (m', d') ∧ m' * 30 + d' = m * 30 + d ∧ In32 m' ∧
      -30 ≤ d' ∧ d' ≤ 30 ∧
      ((0 ≤ m' ∧ (0 < d' ∨ (d' = 0 ∧ 0 ≤ t)) ∨ (m' ≤ 0 ∧ (d' < 0 ∨ (d' = 0 ∧ t ≤ 0))))) ∧
      (d' = 30 → t < 0) ∧ (d' = -30 → t > 0) ∧ (SameSign3 m d t → m' = m ∧ d' = d) := by
  unfold In32 at *
  unfold Interval.signMonth SameSign3
  by_cases h1 : m > 0 ∧ (d < 0 ∨ (d = 0 ∧ t < 0))
  · rw [if_pos h1, chk32_ok (by omega), Res.bind_ok, chk32_ok (by omega)]
    refine ⟨_, _, rfl, ?_⟩
    omega
  · rw [if_neg h1]
    by_cases h2 : m < 0 ∧ (d > 0 ∨ (d = 0 ∧ t > 0))
    · rw [if_pos h2, chk32_ok (by omega), Res.bind_ok, chk32_ok (by omega)]
      refine ⟨_, _, rfl, ?_⟩
      omega
    · rw [if_neg h2]
      refine ⟨_, _, rfl, ?_⟩
      omega

/-- `justify_interval` never panics. -/
theorem C18_no_panic (p : Profile) (a : Interval) (ha : a.WF) :
    (a.justifyInterval p).NoPanic := by
  obtain ⟨l, q, e, -, -, h1, h2, -⟩ := timeModulo_eq p ha.2.2
  have hw := wrap32_in (a.day + wrap32 q)
  have h := wholeMonths_eq hw
  have hd : -30 < wrap32 (wrap32 (a.day + wrap32 q) - wholeMonths (wrap32 (a.day + wrap32 q)) * 30) ∧
      wrap32 (wrap32 (a.day + wrap32 q) - wholeMonths (wrap32 (a.day + wrap32 q)) * 30) < 30 := by
    rw [wrap32_of_in (by omega)]; omega
  obtain ⟨m', d', e', -, -, k1, k2, -⟩ := signMonth_eq p (m := wrap32 (a.month + wholeMonths (wrap32 (a.day + wrap32 q))))
    (wrap32_in _) hd ⟨h1, h2⟩
  obtain ⟨d'', t'', e'', -⟩ := signDayTime_eq p m' (d := d') (t := l) (by unfold In32; omega) ⟨h1, h2⟩
  unfold Interval.justifyInterval
  rw [e]; simp only [Res.bind_ok]
  unfold wholeMonths at *
  rw [chk32_ok (by omega), Res.bind_ok, e', Res.bind_ok]
  simp only
  rw [e'']; simp

/-- **C18.** `justify_interval`, when the day and month counts fit: same length, time below 24
hours, days below 30, and all three fields of one sign. -/
theorem C18_justify_interval (p : Profile) (a : Interval) (ha : a.WF)
    (hd : In32 (a.day + wholeDays a.time))
    (hm : In32 (a.month + wholeMonths (a.day + wholeDays a.time))) :
    ∃ r, a.justifyInterval p = .ok r ∧ r.WF ∧
      spanMicros r.month r.day r.time = spanMicros a.month a.day a.time ∧
      -dayMicros < r.time ∧ r.time < dayMicros ∧ -30 < r.day ∧ r.day < 30 ∧
      SameSign3 r.month r.day r.time := by
  obtain ⟨l, q, e, eq, el, h1, h2, hs, q1, q2⟩ := timeModulo_eq p ha.2.2
  rw [← eq] at hd hm
  have h := wholeMonths_eq hd
  obtain ⟨m', d', e', f1, f2, k1, k2, k3, k4, k5, k6⟩ := signMonth_eq p hm ⟨h.1, h.2.1⟩ ⟨h1, h2⟩
  obtain ⟨d'', t'', e'', g1, g2, g3, g4, g5, g6, g7, g8, g9, g10, g11⟩ :=
    signDayTime_eq p m' (d := d') (t := l) (by unfold In32; omega) ⟨h1, h2⟩
  have he : a.justifyInterval p = .ok ⟨m', d'', t''⟩ := by
    unfold In32 at hd hm
    unfold Interval.justifyInterval
    rw [e]; simp only [Res.bind_ok]
    unfold wholeMonths at *
    rw [wrap32_of_in (by omega : _ ∧ _) (x := q), wrap32_of_in hd, chk32_ok (by omega), Res.bind_ok,
      wrap32_of_in hm, wrap32_of_in (by omega) (x := _ - _ * 30), e', Res.bind_ok]
    exact e''
  have hd30 : -30 < d'' ∧ d'' < 30 := by
    unfold SameSign at *
    constructor <;> omega
  have hsg : SameSign3 m' d'' t'' := by
    unfold SameSign SameSign3 at *
    omega
  refine ⟨_, he, ⟨f2, g9, ?_⟩, ?_, g2, g3, hd30.1, hd30.2, hsg⟩
  · unfold In64; simp only; omega
  · unfold spanMicros dayMicros; simp only; omega

/-- A justified interval is determined by its length. -/
theorem justified_unique {m d t m' d' t' : Int}
    (h1 : -86400000000 < t ∧ t < 86400000000) (h2 : -30 < d ∧ d < 30) (h3 : SameSign3 m d t)
    (h1' : -86400000000 < t' ∧ t' < 86400000000) (h2' : -30 < d' ∧ d' < 30)
    (h3' : SameSign3 m' d' t') (h : spanMicros m d t = spanMicros m' d' t') :
    m = m' ∧ d = d' ∧ t = t' := by
  unfold spanMicros SameSign3 dayMicros at *
  omega

/-- **C18.** Canonical form: intervals that compare equal justify to the same interval. -/
theorem C18_canonical (p : Profile) (a b : Interval) (ha : a.WF) (hb : b.WF)
    (hda : In32 (a.day + wholeDays a.time))
    (hma : In32 (a.month + wholeMonths (a.day + wholeDays a.time)))
    (hdb : In32 (b.day + wholeDays b.time))
    (hmb : In32 (b.month + wholeMonths (b.day + wholeDays b.time)))
    (h : a.cmp b = .eq) : a.justifyInterval p = b.justifyInterval p := by
  obtain ⟨r, e, -, l, t1, t2, d1, d2, s⟩ := C18_justify_interval p a ha hda hma
  obtain ⟨r', e', -, l', t1', t2', d1', d2', s'⟩ := C18_justify_interval p b hb hdb hmb
  have hl : spanMicros a.month a.day a.time = spanMicros b.month b.day b.time := by
    unfold Interval.cmp at h
    rw [Int.compare_eq_eq] at h
    unfold Interval.toI128 at h
    unfold spanMicros dayMicros; omega
  obtain ⟨x, y, z⟩ := justified_unique ⟨t1, t2⟩ ⟨d1, d2⟩ s ⟨t1', t2'⟩ ⟨d1', d2'⟩ s' (by omega)
  rw [e, e']
  obtain ⟨_, _, _⟩ := r
  obtain ⟨_, _, _⟩ := r'
  simp only at x y z
  rw [x, y, z]

/-- **C18.** Idempotence. -/
theorem C18_idempotent (p : Profile) (a r : Interval) (ha : a.WF)
    (hd : In32 (a.day + wholeDays a.time))
    (hm : In32 (a.month + wholeMonths (a.day + wholeDays a.time)))
    (h : a.justifyInterval p = .ok r) : r.justifyInterval p = .ok r := by
  obtain ⟨r', e, wf, l, t1, t2, d1, d2, s⟩ := C18_justify_interval p a ha hd hm
  rw [e] at h; injection h with h; subst h
  have hz : wholeDays r'.time = 0 := by
    unfold wholeDays dayMicros at *; have := tdiv_or r'.time 86400000000; omega
  have hz2 : wholeMonths r'.day = 0 := by
    unfold wholeMonths; have := tdiv_or r'.day 30; omega
  obtain ⟨r2, e2, -, l2, u1, u2, v1, v2, s2⟩ := C18_justify_interval p r' wf
    (by rw [hz]; simpa using wf.2.1)
    (by rw [hz, Int.add_zero, hz2]; simpa using wf.1)
  obtain ⟨x, y, z⟩ := justified_unique ⟨u1, u2⟩ ⟨v1, v2⟩ s2 ⟨t1, t2⟩ ⟨d1, d2⟩ s (by omega)
  rw [e2]
  obtain ⟨_, _, _⟩ := r'
  obtain ⟨_, _, _⟩ := r2
  simp only at x y z
  rw [x, y, z]

example : (⟨1, -1, -3600000000⟩ : Interval).WF ∧
    In32 (-1 + wholeDays (-3600000000)) ∧
    In32 (1 + wholeMonths (-1 + wholeDays (-3600000000))) ∧
    (⟨1, -1, -3600000000⟩ : Interval).justifyInterval .debug = .ok ⟨0, 28, 82800000000⟩ ∧
    (⟨0, 29, -3600000000⟩ : Interval).justifyInterval .debug = .ok ⟨0, 28, 82800000000⟩ ∧
    (⟨1, -1, -3600000000⟩ : Interval).cmp ⟨0, 29, -3600000000⟩ = .eq := by decide

/-- Without the fit conditions lengths are *not* kept: the day count wraps around silently. -/
theorem C16_wraps_beyond_hypothesis :
    (⟨0, 2147483647, 86400000000⟩ : Interval).justifyHours .release = .ok ⟨0, -2147483648, 0⟩ ∧
    (⟨0, 2147483647, 86400000000⟩ : Interval).justifyHours .debug = .ok ⟨0, -2147483648, 0⟩ := by
  decide

/-! ## C19 -/

/-- **C19** (order part). Comparison is comparison of lengths; hence reflexive, antisymmetric up to
`Equal`, transitive and total; `partial_cmp` and `cmp` agree. -/
theorem C19_partial (a b c : Interval) :
    a.cmp b = compare (spanMicros a.month a.day a.time) (spanMicros b.month b.day b.time) ∧
    a.cmp a = .eq ∧ a.cmp b = (b.cmp a).swap ∧
    (a.cmp b ≠ .gt → b.cmp c ≠ .gt → a.cmp c ≠ .gt) ∧
    (a.cmp b = .lt → b.cmp c = .lt → a.cmp c = .lt) ∧
    a.partialCmp b = some (a.cmp b) ∧ (a = b → a.cmp b = .eq) := by
  have e : ∀ x : Interval, x.toI128 = spanMicros x.month x.day x.time := by
    intro x; unfold Interval.toI128 spanMicros dayMicros; omega
  have g : ∀ u v : Int, compare u v ≠ .gt ↔ u ≤ v := by
    intro u v; rw [Ne, Int.compare_eq_gt]; omega
  have k : ∀ x y : Interval, x.cmp y =
      compare (spanMicros x.month x.day x.time) (spanMicros y.month y.day y.time) := by
    intro x y; unfold Interval.cmp; rw [e, e]
  refine ⟨k a b, by rw [k]; simp, ?_, ?_, ?_, rfl, ?_⟩
  · rw [k a b, k b a, Int.compare_swap]
  · rw [k a b, k b c, k a c, g, g, g]; omega
  · rw [k a b, k b c, k a c, Int.compare_eq_lt, Int.compare_eq_lt, Int.compare_eq_lt]; omega
  · rintro rfl; rw [k]; simp

/-- **C19 does not hold in full**: `cmp` is `Equal` on intervals that are not `==` (derived `Eq`,
src/interval.rs:73), e.g. 1 month and 30 days, against the contract of `Ord`. -/
theorem C19_eq_inconsistent :
    (⟨1, 0, 0⟩ : Interval).cmp ⟨0, 30, 0⟩ = .eq ∧ (⟨1, 0, 0⟩ : Interval) ≠ ⟨0, 30, 0⟩ := by decide

end Props
