import Verif.Lemmas.ScaleNeg
import Verif.Props.MoreParts
import Verif.Props.TruncateTypes

/-!
# Property C110: the fields, truncations and normal forms of the opposite interval
-/

namespace Pg

/-- The result with the sign of the float changed. -/
def Res.negated : Res F64 → Res F64
  | .ok x => .ok x.neg
  | .err e => .err e
  | .panic => .panic


end Pg

namespace Props
open Pg Spec

theorem negate_wf {a b : Interval} (h : a.negate = .ok b) : b.WF ∧ b.month = -a.month ∧ b.day = -a.day ∧ b.time = -a.time := by
  obtain ⟨h1, h2, h3, h4, h5, h6⟩ := negate_eq_ok.1 h
  exact ⟨⟨h1, h2, h3⟩, h4, h5, h6⟩

/-- **C110, fields.** Every field of the opposite interval but the quarter is the opposite of the field, and the same units are errors. -/
theorem C110_fields (p : Profile) (a b : Interval) (ha : a.WF) (h : a.negate = .ok b) (hf : HoursFit a.time) (hf' : HoursFit b.time) (ty : FieldType)
    (u : DateUnit) (hu : u ≠ .quarter) : b.datePart p ty u = (a.datePart p ty u).negated := by
  obtain ⟨hb, e1, e2, e3⟩ := negate_wf h
  cases ty with
  | unit =>
    rw [ivPart_eq p a ha hf, ivPart_eq p b hb hf']
    unfold ivTm Interval.fieldPart
    rw [e1, e2, e3]
    simp only [tmod_neg', tdiv_neg']
    cases u <;> first
      | exact absurd rfl hu
      | rfl
      | exact congrArg Res.ok (F64.ofInt_neg _)
      | (unfold partMicros; simp only [F64.ofInt_neg, F64.neg_mul', F64.neg_add']; rfl)
      | (unfold partMillis; simp only [F64.ofInt_neg, F64.neg_mul', F64.neg_div' _ (show F64.fin 1000 ≠ .fin 0 by decide), F64.neg_add']; rfl)
      | (unfold partSecond; simp only [F64.ofInt_neg, F64.neg_div' _ (show F64.fin 1000000 ≠ .fin 0 by decide), F64.neg_add']; rfl)
  | epoch =>
    unfold Interval.datePart
    simp only
    split
    · unfold Interval.epochPart Res.negated
      rw [e1, e2, e3]
      simp only [tmod_neg', tdiv_neg', F64.ofInt_neg, F64.mul_neg', F64.neg_div' _ (show F64.fin 1000000 ≠ .fin 0 by decide), F64.neg_add']
    · rfl

/-- **C110, quarters.** The quarters count from one: the quarter of the opposite interval is two less the quarter. -/
theorem C110_quarter (p : Profile) (a b : Interval) (ha : a.WF) (h : a.negate = .ok b) (hf : HoursFit a.time) (hf' : HoursFit b.time) :
    ∃ k : Int, a.datePart p .unit .quarter = .ok (.fin k) ∧ b.datePart p .unit .quarter = .ok (.fin (2 - k : Int)) := by
  obtain ⟨hb, e1, -, -⟩ := negate_wf h
  obtain ⟨-, -, -, -, ⟨y, k, w1, k1, w2⟩, -⟩ := C53_larger_units p a ha hf
  obtain ⟨-, -, -, -, ⟨y', k', w3, k2, w4⟩, -⟩ := C53_larger_units p b hb hf'
  refine ⟨k + 1, k1, ?_⟩
  rw [k2, show (k' + 1 : Int) = 2 - (k + 1) by rw [e1] at w3 w4; unfold WholeUnits SameSign at *; omega]

example : (⟨17, -5, 3723000001⟩ : Interval).negate = .ok ⟨-17, 5, -3723000001⟩ ∧ HoursFit 3723000001 ∧ HoursFit (-3723000001) ∧
    (⟨17, -5, 3723000001⟩ : Interval).datePart .debug .unit .millisec = .ok (F64.rnd (3000001 / 1000)) ∧
    (⟨-17, 5, -3723000001⟩ : Interval).datePart .debug .unit .millisec = .ok (F64.rnd (-3000001 / 1000)) ∧
    (⟨17, -5, 3723000001⟩ : Interval).datePart .debug .unit .quarter = .ok (.fin 2) ∧
    (⟨-17, 5, -3723000001⟩ : Interval).datePart .debug .unit .quarter = .ok (.fin 0) := by
  decide +kernel

theorem truncZero_neg {k v r s : Int} (hk : 0 < k) (h : TruncZero k v r) (h' : TruncZero k (-v) s) : s = -r := by
  refine truncZero_unique hk h' ?_
  unfold TruncZero at *
  obtain ⟨h1, h2, h3⟩ := h
  refine ⟨by rw [Int.neg_emod_eq_sub_emod, ← Int.emod_emod_of_dvd (k - r) (Int.dvd_refl k), Int.sub_emod, h1]; simp, ?_, ?_⟩
  · intro hv; have := h3 (by omega); omega
  · intro hv; have := h2 (by omega); omega

/-- **C110, truncation.** Under the hypothesis of `C26_interval_partial`, for both intervals: truncation goes towards zero, so that the
opposite interval is truncated to the opposite. -/
theorem C110_truncate (p : Profile) (a b : Interval) (ha : a.WF) (h : a.negate = .ok b) (hf : HoursFit a.time) (hf' : HoursFit b.time) (u : DateUnit)
    (hu : CoarseUnit u ∨ (FineUnit u ∧ In32 (Int.tdiv a.time 60000000) ∧ In32 (Int.tdiv b.time 60000000))) :
    ∃ r : Interval, a.truncate p .unit u = .ok r ∧ b.truncate p .unit u = .ok ⟨-r.month, -r.day, -r.time⟩ := by
  obtain ⟨hb, e1, e2, e3⟩ := negate_wf h
  obtain ⟨r, k1, -, k2⟩ := (C26_interval_partial p a ha u (hu.imp id fun x => ⟨x.1, fun _ => x.2.1⟩)).1 ((hoursFit_iff _).1 hf)
  obtain ⟨s, l1, -, l2⟩ := (C26_interval_partial p b hb u (hu.imp id fun x => ⟨x.1, fun _ => x.2.2⟩)).1 ((hoursFit_iff _).1 hf')
  refine ⟨r, k1, ?_⟩
  rw [l1]
  obtain ⟨m, d, t⟩ := s
  rw [e1, e2, e3] at l2
  unfold IntervalTrunc at k2 l2
  dsimp only at l2
  cases u <;> dsimp only at k2 l2 <;> first
    | exact absurd k2 id
    | (obtain ⟨a1, a2, a3⟩ := k2
       obtain ⟨b1, b2, b3⟩ := l2
       rw [truncZero_neg (by omega) a1 b1, a2, a3, b2, b3]; rfl)
    | (obtain ⟨a1, a2, a3⟩ := k2
       obtain ⟨b1, b2, b3⟩ := l2
       rw [truncZero_neg (by omega) a3 b3, a1, a2, b1, b2])
    | (obtain ⟨a1, a2, a3⟩ := k2
       obtain ⟨b1, b2, b3⟩ := l2
       rw [a1, a2, a3, b1, b2, b3]; rfl)
    | (obtain ⟨a1, a2, a3⟩ := k2
       obtain ⟨b1, b2, b3⟩ := l2
       rw [a1, a2, a3, b1, b2, b3])

example : FineUnit .second ∧ (⟨17, -5, 3723000001⟩ : Interval).truncate .debug .unit .second = .ok ⟨17, -5, 3723000000⟩ ∧
    (⟨-17, 5, -3723000001⟩ : Interval).truncate .debug .unit .second = .ok ⟨-17, 5, -3723000000⟩ := by decide

/-- **C110, type modifiers.** Precision and field range act alike on opposite intervals. -/
theorem C110_typmod (p : Profile) (a b : Interval) (h : a.negate = .ok b) :
    (∀ n : Nat, n ≤ 6 → -9223372036853775807 ≤ a.time → a.time ≤ 9223372036853775807 →
      ∃ r : Interval, a.adjustByTypmod p (intervalTypmod 0x7FFF n) = .ok r ∧ b.adjustByTypmod p (intervalTypmod 0x7FFF n) = .ok ⟨-r.month, -r.day, -r.time⟩) ∧
    ∀ f g, SqlRange f g →
      ∃ r : Interval, a.adjustByTypmod p (intervalTypmod (rangeMask f g) 0xFFFF) = .ok r ∧
        b.adjustByTypmod p (intervalTypmod (rangeMask f g) 0xFFFF) = .ok ⟨-r.month, -r.day, -r.time⟩ := by
  obtain ⟨hb, e1, e2, e3⟩ := negate_wf h
  constructor
  · intro n hn h1 h2
    obtain ⟨⟨r, k1, k2, k3, k4⟩, -⟩ := C22_interval p a n hn ⟨h1, h2⟩
    obtain ⟨⟨s, l1, l2, l3, l4⟩, -⟩ := C22_interval p b n hn ⟨by omega, by omega⟩
    refine ⟨r, k1, ?_⟩
    rw [l1]
    obtain ⟨m, d, t⟩ := s
    dsimp only at l2 l3 l4
    rw [e3] at l4
    rw [(C22_nearest_laws n hn _ _ _ _ k4 l4).2.2.1 rfl, l2, l3, k2, k3, e1, e2]
  · intro f g hs
    have hm : rangeMask f g < 0x7FFF := by cases f <;> cases g <;> first | exact absurd hs (by decide) | decide
    obtain ⟨r, k1, k2, -⟩ := (C23_field_range p a _ hm).1 f g hs rfl
    obtain ⟨s, l1, l2, -⟩ := (C23_field_range p b _ hm).1 f g hs rfl
    refine ⟨r, k1, ?_⟩
    rw [l1]
    obtain ⟨m, d, t⟩ := s
    rw [e1, e2, e3] at l2
    unfold ClearBelow at k2 l2
    dsimp only at l2
    cases g <;> dsimp only at k2 l2 <;> first
      | (obtain ⟨a1, a2, a3⟩ := k2
         obtain ⟨b1, b2, b3⟩ := l2
         rw [truncZero_neg (by omega) a1 b1, a2, a3, b2, b3]; rfl)
      | (obtain ⟨a1, a2, a3⟩ := k2
         obtain ⟨b1, b2, b3⟩ := l2
         rw [truncZero_neg (by omega) a3 b3, a1, a2, b1, b2])
      | (obtain ⟨a1, a2, a3⟩ := k2
         obtain ⟨b1, b2, b3⟩ := l2
         rw [a1, a2, a3, b1, b2, b3]; rfl)
      | (obtain ⟨a1, a2, a3⟩ := k2
         obtain ⟨b1, b2, b3⟩ := l2
         rw [a1, a2, a3, b1, b2, b3])

example (p : Profile) : (⟨17, -5, 3723500000⟩ : Interval).adjustByTypmod p (intervalTypmod 0x7FFF 0) = .ok ⟨17, -5, 3724000000⟩ ∧
    (⟨-17, 5, -3723500000⟩ : Interval).adjustByTypmod p (intervalTypmod 0x7FFF 0) = .ok ⟨-17, 5, -3724000000⟩ := by
  cases p <;> decide

/-- **C110, normal forms.** Where the sums fit, for both intervals. -/
theorem C110_justify (p : Profile) (a b : Interval) (ha : a.WF) (h : a.negate = .ok b) :
    (In32 (a.day + wholeDays a.time) → In32 (b.day + wholeDays b.time) →
      ∃ r : Interval, a.justifyHours p = .ok r ∧ b.justifyHours p = .ok ⟨-r.month, -r.day, -r.time⟩) ∧
    (In32 (a.month + wholeMonths a.day) → In32 (b.month + wholeMonths b.day) →
      ∃ r : Interval, a.justifyDays p = .ok r ∧ b.justifyDays p = .ok ⟨-r.month, -r.day, -r.time⟩) ∧
    (In32 (a.day + wholeDays a.time) → In32 (b.day + wholeDays b.time) → In32 (a.month + wholeMonths (a.day + wholeDays a.time)) →
      In32 (b.month + wholeMonths (b.day + wholeDays b.time)) →
      ∃ r : Interval, a.justifyInterval p = .ok r ∧ b.justifyInterval p = .ok ⟨-r.month, -r.day, -r.time⟩) := by
  obtain ⟨hb, e1, e2, e3⟩ := negate_wf h
  refine ⟨fun h1 h2 => ?_, fun h1 h2 => ?_, fun h1 h2 h3 h4 => ?_⟩
  · obtain ⟨r, k0, -, k1, k2, k3, k4, k5, -⟩ := C16_justify_hours p a ha h1
    obtain ⟨s, l0, -, l1, l2, l3, l4, l5, -⟩ := C16_justify_hours p b hb h2
    refine ⟨r, k0, ?_⟩
    rw [l0]
    obtain ⟨m, d, t⟩ := s
    dsimp only at l1 l2 l3 l4 l5
    rw [e1, e2, e3] at l2
    unfold spanMicros SameSign dayMicros at *
    congr 2 <;> omega
  · obtain ⟨r, k0, -, k1, k2, k3, k4, k5, -⟩ := C17_justify_days p a ha h1
    obtain ⟨s, l0, -, l1, l2, l3, l4, l5, -⟩ := C17_justify_days p b hb h2
    refine ⟨r, k0, ?_⟩
    rw [l0]
    obtain ⟨m, d, t⟩ := s
    dsimp only at l1 l2 l3 l4 l5
    rw [e1, e2, e3] at l2
    unfold spanMicros SameSign dayMicros at *
    congr 2 <;> omega
  · obtain ⟨r, k0, -, k1, k2, k3, k4, k5, k6⟩ := C18_justify_interval p a ha h1 h3
    obtain ⟨s, l0, -, l1, l2, l3, l4, l5, l6⟩ := C18_justify_interval p b hb h2 h4
    refine ⟨r, k0, ?_⟩
    rw [l0]
    obtain ⟨m, d, t⟩ := s
    dsimp only at l1 l2 l3 l4 l5 l6
    rw [e1, e2, e3] at l1
    unfold spanMicros SameSign3 dayMicros at *
    congr 2 <;> omega

example (p : Profile) : (⟨1, 40, -90000000000⟩ : Interval).justifyInterval p = .ok ⟨2, 8, 82800000000⟩ ∧
    (⟨-1, -40, 90000000000⟩ : Interval).justifyInterval p = .ok ⟨-2, -8, -82800000000⟩ := by
  cases p <;> decide

/-- **C110, the order.** Opposite intervals compare the other way round. -/
theorem C110_order (a b a' b' : Interval) (ha : a.negate = .ok a') (hb : b.negate = .ok b') : a'.cmp b' = b.cmp a := by
  obtain ⟨-, a1, a2, a3⟩ := negate_wf ha
  obtain ⟨-, b1, b2, b3⟩ := negate_wf hb
  unfold Interval.cmp Interval.toI128
  rw [a1, a2, a3, b1, b2, b3]
  simp only [compare, compareOfLessAndEq]
  split <;> split <;> (try split) <;> (try split) <;> first | rfl | omega

example : (⟨1, 0, 0⟩ : Interval).cmp ⟨0, 29, 0⟩ = .gt ∧ (⟨-1, 0, 0⟩ : Interval).cmp ⟨0, -29, 0⟩ = .lt := by decide

end Props
