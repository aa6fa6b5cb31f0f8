import Verif.Props.Steps
import Verif.Props.Scale
import Verif.Props.Age
import Mathlib.Tactic.Ring

/-!
# Property C81: the order of intervals and their arithmetic

`Interval::cmp` compares lengths, with 30 days to a month and 24 hours to a day (C19).
-/

namespace Props
open Pg Spec

theorem cmp_span (a b : Interval) :
    a.cmp b = compare (spanMicros a.month a.day a.time) (spanMicros b.month b.day b.time) := (C19_partial a b a).1

theorem span_eq (m d t : Int) : spanMicros m d t = (m * 30 + d) * 86400000000 + t := by
  unfold spanMicros dayMicros; omega

/-- Comparing numbers that differ by the same amount. -/
theorem compare_shift {x y x' y' k : Int} (h : x' = x + k) (h' : y' = y + k) : compare x' y' = compare x y := by
  subst h h'
  rcases Int.lt_trichotomy x y with h | h | h
  · rw [compare_lt_iff_lt.2 h, compare_lt_iff_lt.2 (by omega)]
  · subst h; simp
  · rw [compare_gt_iff_gt.2 h, compare_gt_iff_gt.2 (by omega)]

theorem compare_flip {x y x' y' k : Int} (h : x' = k - x) (h' : y' = k - y) : compare x' y' = compare y x := by
  subst h h'
  rcases Int.lt_trichotomy x y with h | h | h
  · rw [compare_gt_iff_gt.2 h, compare_gt_iff_gt.2 (by omega)]
  · subst h; simp
  · rw [compare_lt_iff_lt.2 h, compare_lt_iff_lt.2 (by omega)]

/-- **C81, sums and differences.** Adding or subtracting the same interval keeps the order, negating both and
subtracting both from the same interval reverse it, as far as the results exist. -/
theorem C81_arithmetic (a b c : Interval) :
    (∀ x y, a.addInterval c = .ok x → b.addInterval c = .ok y → x.cmp y = a.cmp b) ∧
    (∀ x y, a.subInterval c = .ok x → b.subInterval c = .ok y → x.cmp y = a.cmp b) ∧
    (∀ x y, c.subInterval a = .ok x → c.subInterval b = .ok y → x.cmp y = b.cmp a) ∧
    (∀ x y, a.negate = .ok x → b.negate = .ok y → x.cmp y = b.cmp a) := by
  have hadd : ∀ (u v r : Interval), u.addInterval v = .ok r → spanMicros r.month r.day r.time =
      spanMicros u.month u.day u.time + spanMicros v.month v.day v.time := by
    intro u v r h
    rw [(C15_exact_or_overflow u v).1] at h
    split at h
    · injection h with h; subst h; simp only [span_eq]; omega
    · cases h
  have hsub : ∀ (u v r : Interval), u.subInterval v = .ok r → spanMicros r.month r.day r.time =
      spanMicros u.month u.day u.time - spanMicros v.month v.day v.time := by
    intro u v r h
    rw [(C15_exact_or_overflow u v).2.1] at h
    split at h
    · injection h with h; subst h; simp only [span_eq]; omega
    · cases h
  have hneg : ∀ (u r : Interval), u.negate = .ok r → spanMicros r.month r.day r.time =
      0 - spanMicros u.month u.day u.time := by
    intro u r h
    rw [(C15_exact_or_overflow u u).2.2] at h
    split at h
    · injection h with h; subst h; simp only [span_eq]; omega
    · cases h
  refine ⟨?_, ?_, ?_, ?_⟩ <;> intro x y hx hy <;> rw [cmp_span, cmp_span]
  · exact compare_shift (hadd _ _ _ hx) (hadd _ _ _ hy)
  · exact compare_shift (k := - spanMicros c.month c.day c.time) (by rw [hsub _ _ _ hx]; omega)
      (by rw [hsub _ _ _ hy]; omega)
  · exact compare_flip (hsub _ _ _ hx) (hsub _ _ _ hy)
  · exact compare_flip (hneg _ _ hx) (hneg _ _ hy)

example : (⟨1, 0, 0⟩ : Interval).cmp ⟨0, 29, 86400000001⟩ = .lt ∧
    (⟨1, 0, 0⟩ : Interval).addInterval ⟨-1, 5, -7⟩ = .ok ⟨0, 5, -7⟩ ∧
    (⟨0, 29, 86400000001⟩ : Interval).addInterval ⟨-1, 5, -7⟩ = .ok ⟨-1, 34, 86399999994⟩ ∧
    (⟨0, 5, -7⟩ : Interval).cmp ⟨-1, 34, 86399999994⟩ = .lt := by decide

/-- **C81, justified intervals** compare equal to the intervals they come from, so that justifying keeps the order with
any other interval. -/
theorem C81_justify (p : Profile) (a : Interval) (ha : a.WF) (b : Interval) :
    (In32 (a.day + wholeDays a.time) → ∃ r, a.justifyHours p = .ok r ∧ r.cmp a = .eq ∧ r.cmp b = a.cmp b) ∧
    (In32 (a.month + wholeMonths a.day) → ∃ r, a.justifyDays p = .ok r ∧ r.cmp a = .eq ∧ r.cmp b = a.cmp b) ∧
    (In32 (a.day + wholeDays a.time) → In32 (a.month + wholeMonths (a.day + wholeDays a.time)) →
      ∃ r, a.justifyInterval p = .ok r ∧ r.cmp a = .eq ∧ r.cmp b = a.cmp b) := by
  refine ⟨?_, ?_, ?_⟩
  · intro h
    obtain ⟨r, e, -, -, l, -⟩ := C16_justify_hours p a ha h
    exact ⟨r, e, by rw [cmp_span, l]; simp, by rw [cmp_span, cmp_span, l]⟩
  · intro h
    obtain ⟨r, e, -, -, l, -⟩ := C17_justify_days p a ha h
    exact ⟨r, e, by rw [cmp_span, l]; simp, by rw [cmp_span, cmp_span, l]⟩
  · intro h h'
    obtain ⟨r, e, -, l, -⟩ := C18_justify_interval p a ha h h'
    exact ⟨r, e, by rw [cmp_span, l]; simp, by rw [cmp_span, cmp_span, l]⟩

example : (⟨2, -70, 90000000000⟩ : Interval).justifyInterval .debug = .ok ⟨0, -8, -82800000000⟩ ∧
    (⟨0, -8, -82800000000⟩ : Interval).cmp ⟨2, -70, 90000000000⟩ = .eq := by decide

/-- **C81, multiples.** Multiplying by a positive whole number keeps the order, by a negative one reverses it; here each
product fits and clock times stay below 2^53 microseconds, where `f64` is exact. -/
theorem C81_multiples (p : Profile) (a b : Interval) (ha : a.WF) (hb : b.WF) (n : Int)
    (hma : In32 (a.month * n)) (hda : In32 (a.day * n)) (hmb : In32 (b.month * n)) (hdb : In32 (b.day * n))
    (hta : -9007199254740992 ≤ a.time ∧ a.time ≤ 9007199254740992)
    (htb : -9007199254740992 ≤ b.time ∧ b.time ≤ 9007199254740992)
    (hna : -9007199254740992 ≤ a.time * n ∧ a.time * n ≤ 9007199254740992)
    (hnb : -9007199254740992 ≤ b.time * n ∧ b.time * n ≤ 9007199254740992) :
    ∃ x y, a.mulF64 p (.fin n) = .ok x ∧ b.mulF64 p (.fin n) = .ok y ∧
      (0 < n → x.cmp y = a.cmp b) ∧ (n < 0 → x.cmp y = b.cmp a) := by
  refine ⟨_, _, C47_mul_int p a ha n hma hda hta hna, C47_mul_int p b hb n hmb hdb htb hnb, ?_, ?_⟩
  all_goals
    intro hn
    have e : ∀ u : Interval, spanMicros (u.month * n) (u.day * n) (u.time * n) = spanMicros u.month u.day u.time * n := by
      intro u
      rw [span_eq, span_eq]; ring
    rw [cmp_span, cmp_span]
    simp only [e]
    rcases Int.lt_trichotomy (spanMicros a.month a.day a.time) (spanMicros b.month b.day b.time) with h | h | h
  · rw [compare_lt_iff_lt.2 h, compare_lt_iff_lt.2 (Int.mul_lt_mul_of_pos_right h hn)]
  · rw [h]
    rw [compare_eq_iff_eq.2 rfl, compare_eq_iff_eq.2 rfl]
  · rw [compare_gt_iff_gt.2 h, compare_gt_iff_gt.2 (Int.mul_lt_mul_of_pos_right h hn)]
  · rw [compare_gt_iff_gt.2 h, compare_gt_iff_gt.2 (Int.mul_lt_mul_of_neg_right h hn)]
  · rw [h]
    rw [compare_eq_iff_eq.2 rfl, compare_eq_iff_eq.2 rfl]
  · rw [compare_lt_iff_lt.2 h, compare_lt_iff_lt.2 (Int.mul_lt_mul_of_neg_right h hn)]

example : (⟨1, 2, 3⟩ : Interval).cmp ⟨0, 31, 86400000000⟩ = .gt ∧
    (⟨1, 2, 3⟩ : Interval).mulF64 .debug (.fin ((-3 : Int) : Rat)) = .ok ⟨-3, -6, -9⟩ ∧
    (⟨0, 31, 86400000000⟩ : Interval).mulF64 .debug (.fin ((-3 : Int) : Rat)) = .ok ⟨0, -93, -259200000000⟩ ∧
    (⟨-3, -6, -9⟩ : Interval).cmp ⟨0, -93, -259200000000⟩ = .lt := by decide +kernel

/-- **C81, steps from a timestamp.** Two intervals with the same number of months, added to the same timestamp, lead to
timestamps in the order of the intervals. -/
theorem C81_steps (p p' : Profile) (t : Timestamp) (a b : Interval) (r s : Int) (hm : a.month = b.month)
    (ha : a.WF) (hb : b.WF) (h : Lands t.v a.month a.day a.time r) (h' : Lands t.v b.month b.day b.time s) :
    ∃ x y : Timestamp, t.addInterval p a = .ok x ∧ t.addInterval p' b = .ok y ∧ compare x.v y.v = a.cmp b := by
  refine ⟨⟨r⟩, ⟨s⟩, C78_lands p t a r h ha.1 ha.2.1, C78_lands p' t b s h' hb.1 hb.2.1, ?_⟩
  obtain ⟨c, k, hc, hk, hi, -, -, -, hr, -⟩ := h
  obtain ⟨c', k', hc', hk', hi', -, -, -, hs, -⟩ := h'
  obtain ⟨rfl, rfl⟩ := instant_unique hc' hc hk' hk (hi'.trans hi.symm)
  rw [cmp_span]
  refine compare_shift (k := instant (c'.addMonths a.month) k' - a.month * 30 * 86400000000) ?_ ?_
  · rw [hr, span_eq]; unfold dayMicros; dsimp only; omega
  · rw [hs, hm, span_eq]; unfold dayMicros; dsimp only; omega

/-- The months must agree: a month is longer than 29 days, but from the first of February it leads less far. -/
theorem C81_steps_months (p : Profile) :
    (⟨1, 0, 0⟩ : Interval).cmp ⟨0, 29, 0⟩ = .gt ∧
    (⟨instant ⟨2023, 2, 1⟩ ⟨0, 0, 0, 0⟩⟩ : Timestamp).addInterval p ⟨1, 0, 0⟩ =
      .ok ⟨instant ⟨2023, 3, 1⟩ ⟨0, 0, 0, 0⟩⟩ ∧
    (⟨instant ⟨2023, 2, 1⟩ ⟨0, 0, 0, 0⟩⟩ : Timestamp).addInterval p ⟨0, 29, 0⟩ =
      .ok ⟨instant ⟨2023, 3, 2⟩ ⟨0, 0, 0, 0⟩⟩ := by
  cases p <;> decide +kernel

example : Lands (instant ⟨2024, 1, 31⟩ ⟨1, 0, 0, 0⟩) 1 2 3 (instant ⟨2024, 3, 2⟩ ⟨1, 0, 0, 3⟩) :=
  ⟨⟨2024, 1, 31⟩, ⟨1, 0, 0, 0⟩, by decide, by decide, rfl, by decide, by decide, by decide, by decide, by decide⟩

/-- **C81, differences of timestamps** from the same timestamp are in the order of the timestamps. -/
theorem C81_differences (p p' : Profile) (a b c : Timestamp) (ha : TsRange a.v) (hb : TsRange b.v) (hc : TsRange c.v)
    (h1 : In64 (a.v - c.v)) (h2 : In64 (b.v - c.v)) :
    ∃ x y, a.subTimestamp p c = .ok x ∧ b.subTimestamp p' c = .ok y ∧ x.cmp y = compare a.v b.v := by
  obtain ⟨x, ex, mx, lx, -⟩ := C14_partial p a c ha hc h1
  obtain ⟨y, ey, my, ly, -⟩ := C14_partial p' b c hb hc h2
  refine ⟨x, y, ex, ey, ?_⟩
  rw [cmp_span, mx, my]
  refine compare_shift (k := - c.v) ?_ ?_
  · rw [span_eq]; unfold dayMicros at lx; omega
  · rw [span_eq]; unfold dayMicros at ly; omega

example : TsRange 633744000000001 ∧ TsRange (-1) ∧ In64 (633744000000001 - -1) ∧
    (⟨633744000000001⟩ : Timestamp).subTimestamp .debug ⟨-1⟩ = .ok ⟨0, 7335, 2⟩ ∧
    (⟨5⟩ : Timestamp).subTimestamp .debug ⟨-1⟩ = .ok ⟨0, 0, 6⟩ := by decide

/-- `age` is not in the order of the timestamps: on 1 April the age since 29 February is a day less than on 31 March. -/
theorem C81_age_violated (p : Profile) :
    (⟨instant ⟨2024, 3, 31⟩ ⟨0, 0, 0, 0⟩⟩ : Timestamp).age p ⟨instant ⟨2024, 2, 29⟩ ⟨0, 0, 0, 0⟩⟩ = .ok ⟨1, 2, 0⟩ ∧
    (⟨instant ⟨2024, 4, 1⟩ ⟨0, 0, 0, 0⟩⟩ : Timestamp).age p ⟨instant ⟨2024, 2, 29⟩ ⟨0, 0, 0, 0⟩⟩ = .ok ⟨1, 1, 0⟩ ∧
    (⟨1, 1, 0⟩ : Interval).cmp ⟨1, 2, 0⟩ = .lt := by
  cases p <;> decide +kernel

end Props
