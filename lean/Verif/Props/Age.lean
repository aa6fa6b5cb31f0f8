import Verif.Lemmas.Age
import Verif.Lemmas.Trunc
import Verif.Props.Timestamps
import Verif.Props.TimestampArith

/-!
# Symbolic difference of timestamps (C30)
-/

namespace Props
open Pg Spec

/-- The fields of a valid timestamp or of positive infinity. -/
theorem fields_wide (p : Profile) {t : Int} (h : -211813488000000000 ≤ t ∧ t ≤ 9223372036854775807) :
    ∃ c : YMD, c.Real ∧ dayNumber c = t / 86400000000 ∧ -4713 ≤ c.y ∧ c.y ≤ 294277 ∧
      timestamp2time p t = .ok (tmOf c (clockOf t), (clockOf t).us) := by
  obtain ⟨c, hr, hn, he⟩ := timestamp2time_spec p t h.1 h.2
  have hv := isValidJulian_of_range hr (by omega) (by omega)
  rw [isValidJulian_iff] at hv
  refine ⟨c, hr, hn, by omega, ?_, he⟩
  by_cases hy : 294277 < c.y
  · have h1 : dayNumber ⟨294278, 1, 1⟩ ≤ dayNumber c := by
      by_cases hle : dayNumber ⟨294278, 1, 1⟩ ≤ dayNumber c
      · exact hle
      · have := (dayNumber_lt_iff hr (by decide)).1 (show dayNumber c < dayNumber ⟨294278, 1, 1⟩ by omega)
        have hb := real_bounds hr
        unfold YMD.lt at this; simp only at this; omega
    rw [show dayNumber ⟨294278, 1, 1⟩ = 106752348 from by decide] at h1
    omega
  · omega

/-- Both directions of `age` on an ordered pair, positive infinity counted as the instant its value stands for. -/
theorem age_wide (p : Profile) (a b : Timestamp) (ha : -211813488000000000 ≤ a.v ∧ a.v ≤ 9223372036854775807)
    (hb : -211813488000000000 ≤ b.v ∧ b.v ≤ 9223372036854775807) (hle : b.v ≤ a.v) :
    ∃ (c1 c2 : YMD) (m d us : Int), c1.Real ∧ c2.Real ∧
      dayNumber c1 = a.v / 86400000000 ∧ dayNumber c2 = b.v / 86400000000 ∧
      0 ≤ m ∧ m ≤ 4000000 ∧ 0 ≤ d ∧ d < 31 ∧ 0 ≤ us ∧ us < 86400000000 ∧
      AgeOf c1 (clockOf a.v) c2 (clockOf b.v) m d us ∧
      a.age p b = .ok ⟨m, d, us⟩ ∧ b.age p a = .ok ⟨-m, -d, -us⟩ := by
  obtain ⟨c1, r1, d1, y1, y1', e1⟩ := fields_wide p ha
  obtain ⟨c2, r2, d2, y2, y2', e2⟩ := fields_wide p hb
  have q1 := clockOf_real a.v
  have q2 := clockOf_real b.v
  have hn : ¬ dtLt c1 (clockOf a.v) c2 (clockOf b.v) := by
    rw [← instant_lt_iff r1 r2 q1 q2, instant_fields d1, instant_fields d2]; omega
  obtain ⟨x, z, f1, f2, f3, f4, k1, k2, k3, k4, k5, k6, k7, k8, k9, k10, k11, k12, k13, k14, ag⟩ :=
    age_core p r1 r2 q1 q2 ⟨y1, y1'⟩ ⟨y2, y2'⟩ hn
  refine ⟨c1, c2, z.year * 12 + z.mon, z.mday,
    ((z.hour * 60 + z.min) * 60 + z.sec) * 1000000 + z.fsec, r1, r2, d1, d2, by omega, by omega,
    by omega, by omega, by omega, by omega, ag, ?_, ?_⟩
  · unfold Timestamp.age
    rw [e1, Res.bind_ok, e2, Res.bind_ok]
    simp only [show decide (a.v < b.v) = false from decide_eq_false (by omega)]
    rw [f1]
    simp only [Res.bind_ok, Timestamp.ageFlip, Bool.false_eq_true, if_false]
    change (Timestamp.ageBorrow p c2.y c2.m x >>= _) = _
    rw [f4]
    simp only [Res.bind_ok]
    rw [fromPgtime_eq p _ _ (by unfold In32; simp only; omega) (by unfold In32; simp only; omega)
        (by unfold In32; simp only; omega) (by simp only; omega) (by omega)]
  · by_cases heq : a.v = b.v
    · have hab : a = b := by
        cases a; cases b; simp only at heq; rw [heq]
      subst hab
      have hc : c1 = c2 := dayNumber_inj r1 r2 (by omega)
      subst hc
      obtain ⟨u1, u2, u3⟩ := ag
      simp only [Int.lt_irrefl, if_false, Int.sub_self, Int.add_zero, Int.mul_zero] at u1 u2 u3
      unfold Timestamp.age
      rw [e1, Res.bind_ok, Res.bind_ok]
      simp only [show decide (a.v < a.v) = false from decide_eq_false (by omega)]
      rw [f1]
      simp only [Res.bind_ok, Timestamp.ageFlip, Bool.false_eq_true, if_false]
      change (Timestamp.ageBorrow p c1.y c1.m x >>= _) = _
      rw [f4]
      simp only [Res.bind_ok]
      rw [fromPgtime_eq p _ _ (by unfold In32; simp only; omega) (by unfold In32; simp only; omega)
        (by unfold In32; simp only; omega) (by simp only; omega) (by omega)]
      simp only [Res.ok.injEq, Interval.mk.injEq]
      omega
    · unfold Timestamp.age
      rw [e1, e2, Res.bind_ok, Res.bind_ok]
      simp only [show decide (b.v < a.v) = true from decide_eq_true (by omega)]
      rw [f2, Res.bind_ok, f3, Res.bind_ok]
      change (Timestamp.ageBorrow p c2.y c2.m x >>= _) = _
      rw [f4, Res.bind_ok]
      unfold Timestamp.ageFlip
      simp only [if_true]
      rw [chk64_ok (by omega), Res.bind_ok, chk32_ok (by omega), Res.bind_ok, chk32_ok (by omega),
        Res.bind_ok, chk32_ok (by omega), Res.bind_ok, chk32_ok (by omega), Res.bind_ok,
        chk32_ok (by omega), Res.bind_ok, chk32_ok (by omega), Res.bind_ok]
      simp only [Res.pure_eq, Res.bind_ok]
      rw [fromPgtime_eq p _ _ (by unfold In32; simp only; omega) (by unfold In32; simp only; omega)
        (by unfold In32; simp only; omega) (by simp only; omega) (by omega)]
      simp only [Res.ok.injEq, Interval.mk.injEq, true_and]
      omega

/-- Both directions of `age` on an ordered pair. -/
theorem age_both (p : Profile) (a b : Timestamp) (ha : TsRange a.v) (hb : TsRange b.v)
    (hle : b.v ≤ a.v) :
    ∃ (c1 c2 : YMD) (m d us : Int), c1.Real ∧ c2.Real ∧
      dayNumber c1 = a.v / 86400000000 ∧ dayNumber c2 = b.v / 86400000000 ∧
      0 ≤ m ∧ m ≤ 4000000 ∧ 0 ≤ d ∧ d < 31 ∧ 0 ≤ us ∧ us < 86400000000 ∧
      AgeOf c1 (clockOf a.v) c2 (clockOf b.v) m d us ∧
      a.age p b = .ok ⟨m, d, us⟩ ∧ b.age p a = .ok ⟨-m, -d, -us⟩ := by
  rw [tsRange_iff] at ha hb
  exact age_wide p a b (by omega) (by omega) hle

/-- **C30.** The age of a timestamp over an earlier (or equal) one has months and days and time all
non-negative, fewer than 31 days and less than 24 hours; the age of a timestamp over itself is
zero; swapping the operands negates every field. In particular `age` never panics on valid
timestamps, in either profile. -/
theorem C30_signed_antisymmetric (p : Profile) (a b : Timestamp) (ha : TsRange a.v)
    (hb : TsRange b.v) (hle : b.v ≤ a.v) :
    ∃ r, a.age p b = .ok r ∧ 0 ≤ r.month ∧ 0 ≤ r.day ∧ r.day < 31 ∧ 0 ≤ r.time ∧
      r.time < dayMicros ∧ b.age p a = .ok ⟨-r.month, -r.day, -r.time⟩ ∧
      a.age p a = .ok Interval.zero := by
  obtain ⟨c1, c2, m, d, us, r1, r2, d1, d2, k1, k2, k3, k4, k5, k6, ag, e1, e2⟩ :=
    age_both p a b ha hb hle
  refine ⟨_, e1, k1, k3, k4, k5, k6, e2, ?_⟩
  obtain ⟨c1', c2', m', d', us', r1', r2', d1', d2', -, -, -, -, -, -, ag', e1', -⟩ :=
    age_both p a a ha ha (Int.le_refl _)
  have hc : c1' = c2' := dayNumber_inj r1' r2' (by omega)
  subst hc
  obtain ⟨u1, u2, u3⟩ := ag'
  simp only [Int.lt_irrefl, if_false, Int.sub_self, Int.add_zero, Int.mul_zero] at u1 u2 u3
  rw [e1', u1, u2, u3]; rfl

/-- Day and clock of the later reading do not precede day of the month and clock of the earlier
one: no day has to be borrowed from a month. -/
def NoDayBorrow (c1 : YMD) (k1 : Clock) (c2 : YMD) (k2 : Clock) : Prop :=
  c2.d < c1.d ∨ (c2.d = c1.d ∧ k2.micros ≤ k1.micros)

instance (c1 : YMD) (k1 : Clock) (c2 : YMD) (k2 : Clock) : Decidable (NoDayBorrow c1 k1 c2 k2) :=
  inferInstanceAs (Decidable (_ ∨ _))

theorem instant_inj {c c' : YMD} {t t' : Clock} (hc : c.Real) (hc' : c'.Real) (ht : t.Real)
    (ht' : t'.Real) (h : instant c t = instant c' t') : c = c' ∧ t = t' := by
  have b1 := micros_bounds ht
  have b2 := micros_bounds ht'
  unfold instant dayMicros at h
  have hd : dayNumber c = dayNumber c' := by omega
  refine ⟨dayNumber_inj hc hc' hd, ?_⟩
  have hm : t.micros = t'.micros := by omega
  unfold Clock.Real at ht ht'
  unfold Clock.micros at hm
  obtain ⟨a, b, c, d⟩ := t
  obtain ⟨a', b', c', d'⟩ := t'
  simp only at *
  have : a = a' ∧ b = b' ∧ c = c' ∧ d = d' := by omega
  obtain ⟨rfl, rfl, rfl, rfl⟩ := this
  rfl

/-- **C30.** Adding the months of the age to the earlier timestamp does not pass the later one, and
(when the earlier day of the month exists in every month) one more month does pass it; when no day
is borrowed, adding the whole age gives the later timestamp back. -/
theorem C30_months_and_recover (p : Profile) (c1 c2 : YMD) (k1 k2 : Clock) (r1 : c1.Real)
    (r2 : c2.Real) (q1 : k1.Real) (q2 : k2.Real) (ha : TsRange (instant c1 k1))
    (hb : TsRange (instant c2 k2)) (hle : instant c2 k2 ≤ instant c1 k1) :
    ∃ r, (⟨instant c1 k1⟩ : Timestamp).age p ⟨instant c2 k2⟩ = .ok r ∧
      (∃ s, (⟨instant c2 k2⟩ : Timestamp).addInterval p ⟨r.month, 0, 0⟩ = .ok s ∧
        s.v ≤ instant c1 k1) ∧
      (c2.d ≤ 28 → instant c1 k1 < instant (c2.addMonths (r.month + 1)) k2) ∧
      (NoDayBorrow c1 k1 c2 k2 →
        (⟨instant c2 k2⟩ : Timestamp).addInterval p r = .ok ⟨instant c1 k1⟩) := by
  obtain ⟨c1', c2', m, d, us, r1', r2', d1, d2, l1, l2, l3, l4, l5, l6, ag, e1, -⟩ :=
    age_both p ⟨instant c1 k1⟩ ⟨instant c2 k2⟩ ha hb hle
  obtain ⟨rfl, hk1⟩ := instant_inj r1' r1 (clockOf_real _) q1 (instant_fields d1)
  obtain ⟨rfl, hk2⟩ := instant_inj r2' r2 (clockOf_real _) q2 (instant_fields d2)
  simp only [hk1, hk2] at ag
  obtain ⟨u1, u2, u3⟩ := ag
  refine ⟨⟨m, d, us⟩, e1, ?_⟩
  have ha' := (tsRange_iff _).1 ha
  have hb' := (tsRange_iff _).1 hb
  have bd1 := real_bounds r1
  have bd2 := real_bounds r2
  have hm1 := r1.2.2.2
  have b1 := micros_bounds q1
  have b2 := micros_bounds q2
  obtain ⟨x, t, rx, qt, eqt, s1, -⟩ := C10_add_months p ⟨instant c2' k2⟩ m hb (by unfold In32; omega)
  obtain ⟨rfl, rfl⟩ := instant_inj rx r2 qt q2 eqt
  have hle' := (instant_le_iff r2 r1 q2 q1).1 hle
  have rm := addMonths_real r2 m
  have rmd := monthDays_bounds ((x.y * 12 + (x.m - 1) + m) / 12) ((x.y * 12 + (x.m - 1) + m) % 12 + 1)
  have c3 : instant (x.addMonths m) t ≤ instant c1' k1 := by
    rw [instant_le_iff rm r1 q2 q1]
    unfold YMD.addMonths
    simp only
    split at u3 <;> split <;> split at u2 <;> omega
  have c4 : instant x t ≤ instant (x.addMonths m) t := by
    rw [instant_le_iff r2 rm q2 q2]
    have hxm := r2.2.2.2
    by_cases hm0 : m = 0
    · have : x.addMonths m = x := by
        obtain ⟨y, mm, dd⟩ := x
        subst hm0
        unfold YMD.addMonths
        simp only at *
        rw [show (y * 12 + (mm - 1) + 0) / 12 = y by omega,
          show (y * 12 + (mm - 1) + 0) % 12 + 1 = mm by omega, if_pos hxm]
      rw [this]; omega
    · unfold YMD.addMonths
      simp only
      omega
  have hxr : TsRange (instant (x.addMonths m) t) := by rw [tsRange_iff]; omega
  refine ⟨⟨_, s1 hxr, c3⟩, ?_, ?_⟩
  · intro h28
    have rm' := addMonths_real r2 (m + 1)
    have rmd' := monthDays_bounds ((x.y * 12 + (x.m - 1) + (m + 1)) / 12)
      ((x.y * 12 + (x.m - 1) + (m + 1)) % 12 + 1)
    apply Int.not_le.1
    rw [instant_le_iff rm' r1 q2 q1]
    unfold YMD.addMonths
    simp only
    rw [if_pos (by omega)]
    split at u3 <;> split at u2 <;> omega
  · intro hnb
    have hxc : x.addMonths m = ⟨c1'.y, c1'.m, x.d⟩ ∧ d * 86400000000 + us =
        (c1'.d - x.d) * 86400000000 + k1.micros - t.micros := by
      unfold NoDayBorrow at hnb
      have hcase : ¬ (c1'.d - x.d - (if k1.micros < t.micros then 1 else 0) < 0) := by
        split <;> omega
      rw [if_neg hcase] at u2 u3
      have hk : x.y * 12 + (x.m - 1) + m = c1'.y * 12 + (c1'.m - 1) := by omega
      constructor
      · unfold YMD.addMonths
        simp only
        rw [hk, show (c1'.y * 12 + (c1'.m - 1)) / 12 = c1'.y by omega,
          show (c1'.y * 12 + (c1'.m - 1)) % 12 + 1 = c1'.m by omega, if_pos (by omega)]
      · split at u1 <;> split at u2 <;> omega
    obtain ⟨hx1, hx2⟩ := hxc
    have hdn : dayNumber ⟨c1'.y, c1'.m, x.d⟩ = dayNumber c1' - (c1'.d - x.d) := by
      have := jdn_eq c1'
      have := jdn_eq ⟨c1'.y, c1'.m, x.d⟩
      have := jdn_day c1'.y c1'.m c1'.d (by omega) (by omega)
      have := jdn_day c1'.y c1'.m x.d (by omega) (by omega)
      simp only at *
      omega
    have hin : instant (x.addMonths m) t + d * 86400000000 + us = instant c1' k1 := by
      rw [hx1]
      unfold instant dayMicros
      rw [hdn]; omega
    rw [C12_steps p ⟨instant x t⟩ ⟨m, d, us⟩ (.inl hb)]
    simp only
    rw [s1 hxr, Res.bind_ok]
    have hdr : TsRange (instant (x.addMonths m) t + d * dayMicros) := by
      rw [tsRange_iff]; unfold dayMicros; omega
    have htd : ¬ (targetDay (instant (x.addMonths m) t) d ≤ -1) := by
      unfold targetDay
      rw [show dayNumber firstDay = -2451545 from by decide]
      unfold dayMicros
      omega
    rw [(C11_partial p ⟨instant (x.addMonths m) t⟩ d hxr (by unfold In32; omega)
      (fun _ => by simp only; omega) (fun _ => by simp only; omega)).1 hdr, Res.bind_ok]
    have hfin : instant (x.addMonths m) t + d * dayMicros + us = instant c1' k1 := by
      unfold dayMicros; omega
    rw [(C12_time_step_partial p ⟨instant (x.addMonths m) t + d * dayMicros⟩ us hdr
      (by simp only; rw [hfin]; unfold In64; omega)).1 (by simp only; rw [hfin]; exact ha)]
    simp only [hfin]

/-- The first day of the month after that of `c`. -/
def nextMonth (c : YMD) : YMD := (⟨c.y, c.m, 1⟩ : YMD).addMonths 1

theorem nextMonth_number {c : YMD} (h : c.Real) : dayNumber (nextMonth c) = dayNumber c + (monthDays c.y c.m - c.d) + 1 := by
  have hb := real_bounds h
  have hmd := monthDays_bounds c.y c.m
  have hr : (⟨c.y, c.m, monthDays c.y c.m⟩ : YMD).Real := ⟨hb.1, hb.2.1, by dsimp only; omega, Int.le_refl _⟩
  have e : nextMonth c = (⟨c.y, c.m, monthDays c.y c.m⟩ : YMD).next := by
    unfold nextMonth YMD.addMonths YMD.next
    dsimp only
    have g := monthDays_bounds ((c.y * 12 + (c.m - 1) + 1) / 12) ((c.y * 12 + (c.m - 1) + 1) % 12 + 1)
    rw [if_pos (show (1 : Int) ≤ _ by omega), if_neg (Int.lt_irrefl _)]
    split
    · simp only [YMD.mk.injEq, and_true]; omega
    · simp only [YMD.mk.injEq, and_true]; omega
  have j := jdn_next hr
  have e1 := jdn_eq (⟨c.y, c.m, monthDays c.y c.m⟩ : YMD).next
  have e2 := jdn_eq ⟨c.y, c.m, monthDays c.y c.m⟩
  have e3 : dayNumber ⟨c.y, c.m, monthDays c.y c.m⟩ = dayNumber c + (monthDays c.y c.m - c.d) := by unfold dayNumber; dsimp only; omega
  rw [e]
  dsimp only at e2 j
  omega

/-- **C30.** Which months and days the age counts. Without a borrow the months lead from the month of the earlier to the
month of the later timestamp. With one the days and the time lead from the earlier timestamp into the following month, to
day of the month and clock of the later timestamp, and the months lead from there to the month of the later one. -/
theorem C30_borrow (p : Profile) (c1 c2 : YMD) (k1 k2 : Clock) (r1 : c1.Real) (r2 : c2.Real) (q1 : k1.Real) (q2 : k2.Real)
    (ha : TsRange (instant c1 k1)) (hb : TsRange (instant c2 k2)) (hle : instant c2 k2 ≤ instant c1 k1) :
    ∃ r, (⟨instant c1 k1⟩ : Timestamp).age p ⟨instant c2 k2⟩ = .ok r ∧
      (NoDayBorrow c1 k1 c2 k2 → (⟨c2.y, c2.m, 1⟩ : YMD).addMonths r.month = ⟨c1.y, c1.m, 1⟩ ∧
        r.day * dayMicros + r.time = (c1.d - c2.d) * dayMicros + (k1.micros - k2.micros)) ∧
      (¬ NoDayBorrow c1 k1 c2 k2 → (nextMonth c2).addMonths r.month = ⟨c1.y, c1.m, 1⟩ ∧
        instant c2 k2 + r.day * dayMicros + r.time = dayNumber (nextMonth c2) * dayMicros + (c1.d - 1) * dayMicros + k1.micros) := by
  obtain ⟨c1', c2', m, d, us, r1', r2', d1, d2, l1, l2, l3, l4, l5, l6, ag, e1, -⟩ :=
    age_both p ⟨instant c1 k1⟩ ⟨instant c2 k2⟩ ha hb hle
  obtain ⟨rfl, hk1⟩ := instant_inj r1' r1 (clockOf_real _) q1 (instant_fields d1)
  obtain ⟨rfl, hk2⟩ := instant_inj r2' r2 (clockOf_real _) q2 (instant_fields d2)
  rw [hk1, hk2] at ag
  obtain ⟨u1, u2, u3⟩ := ag
  have hb1 := real_bounds r1
  have hb2 := real_bounds r2
  have add : ∀ y m y' m' n : Int, 1 ≤ m ∧ m ≤ 12 → 1 ≤ m' ∧ m' ≤ 12 → n = 12 * (y' - y) + (m' - m) →
      (⟨y, m, 1⟩ : YMD).addMonths n = ⟨y', m', 1⟩ := by
    intro y m y' m' n h h' e
    unfold YMD.addMonths
    dsimp only
    have g := monthDays_bounds ((y * 12 + (m - 1) + n) / 12) ((y * 12 + (m - 1) + n) % 12 + 1)
    rw [if_pos (by omega)]
    simp only [YMD.mk.injEq, and_true]
    omega
  have mb1 := micros_bounds q1
  have mb2 := micros_bounds q2
  refine ⟨_, e1, ?_, ?_⟩
  · intro hn
    unfold NoDayBorrow at hn
    rw [if_neg (show ¬ c1'.d - c2'.d - (if k1.micros < k2.micros then 1 else 0) < 0 by split <;> omega)] at u2 u3
    refine ⟨add _ _ _ _ _ ⟨hb2.1, hb2.2.1⟩ ⟨hb1.1, hb1.2.1⟩ (by dsimp only; omega), ?_⟩
    dsimp only
    unfold dayMicros
    by_cases hlt : k1.micros < k2.micros <;> simp only [hlt, if_true, if_false] at u1 u2 <;> omega
  · intro hn
    unfold NoDayBorrow at hn
    rw [if_pos (show c1'.d - c2'.d - (if k1.micros < k2.micros then 1 else 0) < 0 by split <;> omega)] at u2 u3
    refine ⟨?_, ?_⟩
    · have e : nextMonth c2' = ⟨(nextMonth c2').y, (nextMonth c2').m, 1⟩ := by
        unfold nextMonth YMD.addMonths
        dsimp only
        have g := monthDays_bounds ((c2'.y * 12 + (c2'.m - 1) + 1) / 12) ((c2'.y * 12 + (c2'.m - 1) + 1) % 12 + 1)
        rw [if_pos (by omega)]
      rw [e]
      refine add _ _ _ _ _ ?_ ⟨hb1.1, hb1.2.1⟩ ?_
      · unfold nextMonth YMD.addMonths; dsimp only; omega
      · unfold nextMonth YMD.addMonths; dsimp only; omega
    · rw [nextMonth_number r2]
      unfold instant dayMicros
      dsimp only
      by_cases hlt : k1.micros < k2.micros <;> simp only [hlt, if_true, if_false] at u1 u2 <;> omega

example : (⟨instant ⟨2021, 3, 1⟩ ⟨5, 0, 0, 0⟩⟩ : Timestamp).age .debug ⟨instant ⟨2020, 12, 30⟩ ⟨6, 0, 0, 1⟩⟩ = .ok ⟨2, 1, 82799999999⟩ ∧
    ¬ NoDayBorrow ⟨2021, 3, 1⟩ ⟨5, 0, 0, 0⟩ ⟨2020, 12, 30⟩ ⟨6, 0, 0, 1⟩ ∧ nextMonth ⟨2020, 12, 30⟩ = ⟨2021, 1, 1⟩ ∧
    TsRange (instant ⟨2020, 12, 30⟩ ⟨6, 0, 0, 1⟩) := by decide

/-- **C30**, the note on day borrows: with a borrow the law `b + age(a, b) = a` fails, here for
b = 2021-01-30 and a = 2021-03-01: the age is 1 month 2 days, and b plus that is 2021-03-02. -/
theorem C30_recover_needs_no_borrow (p : Profile) :
    (⟨instant ⟨2021, 3, 1⟩ ⟨0, 0, 0, 0⟩⟩ : Timestamp).age p ⟨instant ⟨2021, 1, 30⟩ ⟨0, 0, 0, 0⟩⟩ =
      .ok ⟨1, 2, 0⟩ ∧
    (⟨instant ⟨2021, 1, 30⟩ ⟨0, 0, 0, 0⟩⟩ : Timestamp).addInterval p ⟨1, 2, 0⟩ =
      .ok ⟨instant ⟨2021, 3, 2⟩ ⟨0, 0, 0, 0⟩⟩ := by
  cases p <;> decide

example : (⟨instant ⟨2024, 3, 1⟩ ⟨5, 0, 0, 0⟩⟩ : Timestamp).age .debug
      ⟨instant ⟨2020, 12, 31⟩ ⟨6, 0, 0, 1⟩⟩ = .ok ⟨38, 0, 82799999999⟩ ∧
    NoDayBorrow ⟨2024, 3, 10⟩ ⟨5, 0, 0, 0⟩ ⟨2020, 12, 9⟩ ⟨6, 0, 0, 0⟩ ∧
    TsRange (instant ⟨2020, 12, 9⟩ ⟨6, 0, 0, 0⟩) := by decide

/-- The last day of the month before that of `c`. -/
def monthBefore (c : YMD) : YMD :=
  let k := c.y * 12 + (c.m - 1) - 1
  ⟨k / 12, k % 12 + 1, monthDays (k / 12) (k % 12 + 1)⟩

/-- By how many days adding the age to the earlier timestamp passes the later one, if a day was borrowed: the borrowed days
are those of the month of the earlier timestamp, the days that are passed are those of the month before the later one. -/
def ageExcess (c1 c2 : YMD) : Int :=
  (monthDays c2.y c2.m - (monthBefore c1).d) - (if c2.d ≤ (monthBefore c1).d then 0 else c2.d - (monthBefore c1).d)

theorem monthBefore_number {c : YMD} (h : c.Real) : dayNumber c = dayNumber (monthBefore c) + c.d := by
  have hb := real_bounds h
  have g := monthDays_bounds ((c.y * 12 + (c.m - 1) - 1) / 12) ((c.y * 12 + (c.m - 1) - 1) % 12 + 1)
  have hr : (monthBefore c).Real := by
    unfold monthBefore YMD.Real; dsimp only; omega
  have n := nextMonth_number hr
  have e : nextMonth (monthBefore c) = ⟨c.y, c.m, 1⟩ := by
    unfold nextMonth monthBefore YMD.addMonths
    dsimp only
    have g := monthDays_bounds (((c.y * 12 + (c.m - 1) - 1) / 12 * 12 + ((c.y * 12 + (c.m - 1) - 1) % 12 + 1 - 1) + 1) / 12)
      (((c.y * 12 + (c.m - 1) - 1) / 12 * 12 + ((c.y * 12 + (c.m - 1) - 1) % 12 + 1 - 1) + 1) % 12 + 1)
    rw [if_pos (by omega)]
    simp only [YMD.mk.injEq, and_true]
    omega
  have e2 : dayNumber ⟨c.y, c.m, 1⟩ = dayNumber c - (c.d - 1) := by unfold dayNumber; dsimp only; omega
  rw [e, e2] at n
  have e3 : monthDays (monthBefore c).y (monthBefore c).m = (monthBefore c).d := rfl
  omega

/-- **C30.** What adding the age gives if a day was borrowed: the later timestamp moved by `ageExcess` days, or an error if
that is out of range. -/
theorem C30_added_back (p : Profile) (c1 c2 : YMD) (k1 k2 : Clock) (r1 : c1.Real) (r2 : c2.Real) (q1 : k1.Real) (q2 : k2.Real)
    (ha : TsRange (instant c1 k1)) (hb : TsRange (instant c2 k2)) (hle : instant c2 k2 ≤ instant c1 k1)
    (hn : ¬ NoDayBorrow c1 k1 c2 k2) :
    ∃ r, (⟨instant c1 k1⟩ : Timestamp).age p ⟨instant c2 k2⟩ = .ok r ∧
      (TsRange (instant c1 k1 + ageExcess c1 c2 * dayMicros) →
        (⟨instant c2 k2⟩ : Timestamp).addInterval p r = .ok ⟨instant c1 k1 + ageExcess c1 c2 * dayMicros⟩) ∧
      (¬ TsRange (instant c1 k1 + ageExcess c1 c2 * dayMicros) →
        ((⟨instant c2 k2⟩ : Timestamp).addInterval p r).IsErr) := by
  obtain ⟨r, e, ⟨s, es, hs⟩, -, -⟩ := C30_months_and_recover p c1 c2 k1 k2 r1 r2 q1 q2 ha hb hle
  obtain ⟨c1', c2', m, d, us, r1', r2', d1, d2, l1, l2, l3, l4, l5, l6, ag, e1, -⟩ :=
    age_both p ⟨instant c1 k1⟩ ⟨instant c2 k2⟩ ha hb hle
  obtain ⟨rfl, hk1⟩ := instant_inj r1' r1 (clockOf_real _) q1 (instant_fields d1)
  obtain ⟨rfl, hk2⟩ := instant_inj r2' r2 (clockOf_real _) q2 (instant_fields d2)
  rw [hk1, hk2] at ag
  rw [e1, Res.ok.injEq] at e
  subst e
  obtain ⟨u1, u2, u3⟩ := ag
  refine ⟨_, e1, ?_⟩
  have ha' := (tsRange_iff _).1 ha
  have hb' := (tsRange_iff _).1 hb
  have bd1 := real_bounds r1
  have bd2 := real_bounds r2
  have b1 := micros_bounds q1
  have b2 := micros_bounds q2
  unfold NoDayBorrow at hn
  rw [if_pos (show c1'.d - c2'.d - (if k1.micros < k2.micros then 1 else 0) < 0 by split <;> omega)] at u2 u3
  obtain ⟨x, t, rx, qt, eqt, s1, s2⟩ := C10_add_months p ⟨instant c2' k2⟩ m hb (by unfold In32; omega)
  obtain ⟨rfl, rfl⟩ := instant_inj rx r2 qt q2 eqt
  have hxr : TsRange (instant (x.addMonths m) t) := by
    by_cases h : TsRange (instant (x.addMonths m) t)
    · exact h
    · obtain ⟨e, he⟩ := s2 h
      rw [he] at es; cases es
  have hx1 : x.addMonths m = ⟨(monthBefore c1').y, (monthBefore c1').m, if x.d ≤ (monthBefore c1').d then x.d else (monthBefore c1').d⟩ := by
    have hk : x.y * 12 + (x.m - 1) + m = c1'.y * 12 + (c1'.m - 1) - 1 := by omega
    unfold YMD.addMonths monthBefore
    dsimp only
    rw [hk]
  have hdn : dayNumber (x.addMonths m) = dayNumber c1' - c1'.d - (monthBefore c1').d +
      (if x.d ≤ (monthBefore c1').d then x.d else (monthBefore c1').d) := by
    have h1 := monthBefore_number r1
    have h2 : dayNumber ⟨(monthBefore c1').y, (monthBefore c1').m, if x.d ≤ (monthBefore c1').d then x.d else (monthBefore c1').d⟩ =
        dayNumber (monthBefore c1') - (monthBefore c1').d + (if x.d ≤ (monthBefore c1').d then x.d else (monthBefore c1').d) := by
      unfold dayNumber; dsimp only; omega
    rw [hx1, h2]; omega
  have hin : instant (x.addMonths m) t + d * dayMicros + us = instant c1' k1 + ageExcess c1' x * dayMicros := by
    unfold instant ageExcess
    rw [hdn]
    unfold dayMicros
    by_cases hlt : k1.micros < t.micros <;> by_cases hd : x.d ≤ (monthBefore c1').d <;>
      simp only [hlt, hd, if_true, if_false] at u1 u2 ⊢ <;> omega
  have hex : -31 ≤ ageExcess c1' x ∧ ageExcess c1' x ≤ 3 := by
    have g1 := monthDays_bounds x.y x.m
    have g2 := monthDays_bounds (monthBefore c1').y (monthBefore c1').m
    have e3 : monthDays (monthBefore c1').y (monthBefore c1').m = (monthBefore c1').d := rfl
    unfold ageExcess
    split <;> omega
  have hx' := (tsRange_iff _).1 hxr
  rw [C12_steps p ⟨instant x t⟩ ⟨m, d, us⟩ (.inl hb)]
  simp only
  rw [s1 hxr, Res.bind_ok]
  have htd : ¬ (targetDay (instant (x.addMonths m) t) d ≤ -1) := by
    unfold targetDay
    rw [show dayNumber firstDay = -2451545 from by decide]
    unfold dayMicros
    omega
  have hday := C11_partial p ⟨instant (x.addMonths m) t⟩ d hxr (by unfold In32; omega)
      (fun _ => by simp only; omega) (fun _ => by simp only; omega)
  have htime : ∀ h : TsRange (instant (x.addMonths m) t + d * dayMicros), _ :=
    fun h => C12_time_step_partial p ⟨instant (x.addMonths m) t + d * dayMicros⟩ us h
      (by simp only; rw [hin]; unfold In64 dayMicros; omega)
  simp only [hin] at htime
  constructor
  · intro hr
    have hr' := (tsRange_iff _).1 hr
    have hdr : TsRange (instant (x.addMonths m) t + d * dayMicros) := by
      rw [← hin] at hr'
      rw [tsRange_iff]; unfold dayMicros at *; omega
    rw [hday.1 hdr, Res.bind_ok]
    exact (htime hdr).1 hr
  · intro hr
    by_cases hdr : TsRange (instant (x.addMonths m) t + d * dayMicros)
    · rw [hday.1 hdr, Res.bind_ok]
      exact (htime hdr).2 hr
    · obtain ⟨e, he⟩ := hday.2 hdr
      rw [he, Res.bind_err]
      exact ⟨_, rfl⟩

/-- **C30.** Adding the age to the earlier timestamp gives the later one exactly if no day was borrowed, or the earlier day
of the month exists in the month before the later one and both months have the same length, or the earlier day does not
exist there and is the last one of its month. -/
theorem C30_recover_iff (p : Profile) (c1 c2 : YMD) (k1 k2 : Clock) (r1 : c1.Real) (r2 : c2.Real) (q1 : k1.Real) (q2 : k2.Real)
    (ha : TsRange (instant c1 k1)) (hb : TsRange (instant c2 k2)) (hle : instant c2 k2 ≤ instant c1 k1) :
    ∃ r, (⟨instant c1 k1⟩ : Timestamp).age p ⟨instant c2 k2⟩ = .ok r ∧
      ((⟨instant c2 k2⟩ : Timestamp).addInterval p r = .ok ⟨instant c1 k1⟩ ↔
        NoDayBorrow c1 k1 c2 k2 ∨
        (c2.d ≤ (monthBefore c1).d ∧ monthDays c2.y c2.m = (monthBefore c1).d) ∨
        ((monthBefore c1).d < c2.d ∧ c2.d = monthDays c2.y c2.m)) := by
  by_cases hn : NoDayBorrow c1 k1 c2 k2
  · obtain ⟨r, e, -, -, h⟩ := C30_months_and_recover p c1 c2 k1 k2 r1 r2 q1 q2 ha hb hle
    exact ⟨r, e, fun _ => .inl hn, fun _ => h hn⟩
  · obtain ⟨r, e, h1, h2⟩ := C30_added_back p c1 c2 k1 k2 r1 r2 q1 q2 ha hb hle hn
    refine ⟨r, e, ?_, ?_⟩
    · intro h
      right
      have hz : ageExcess c1 c2 = 0 := by
        by_cases hr : TsRange (instant c1 k1 + ageExcess c1 c2 * dayMicros)
        · rw [h1 hr] at h
          simp only [Res.ok.injEq, Timestamp.mk.injEq] at h
          unfold dayMicros at h; omega
        · obtain ⟨e, he⟩ := h2 hr
          rw [he] at h; cases h
      unfold ageExcess at hz
      split at hz <;> omega
    · rintro (h | h)
      · exact absurd h hn
      · have hz : ageExcess c1 c2 = 0 := by
          unfold ageExcess
          split <;> omega
        rw [hz] at h1
        simp only [Int.zero_mul, Int.add_zero] at h1
        exact h1 ha

/-- Witnesses: from 2021-01-31 to 2021-03-01 the age 1 month 1 day leads back; from 2021-01-30 the excess is one day; from
2021-02-28 to 2021-05-27 it is -2 days. -/
example : ¬ NoDayBorrow ⟨2021, 3, 1⟩ ⟨0, 0, 0, 0⟩ ⟨2021, 1, 31⟩ ⟨0, 0, 0, 0⟩ ∧ monthBefore ⟨2021, 3, 1⟩ = ⟨2021, 2, 28⟩ ∧
    ageExcess ⟨2021, 3, 1⟩ ⟨2021, 1, 31⟩ = 0 ∧ ageExcess ⟨2021, 3, 1⟩ ⟨2021, 1, 30⟩ = 1 ∧
    ageExcess ⟨2021, 5, 27⟩ ⟨2021, 2, 28⟩ = -2 ∧
    (⟨instant ⟨2021, 5, 27⟩ ⟨0, 0, 0, 0⟩⟩ : Timestamp).age .debug ⟨instant ⟨2021, 2, 28⟩ ⟨0, 0, 0, 0⟩⟩ = .ok ⟨2, 27, 0⟩ ∧
    (⟨instant ⟨2021, 2, 28⟩ ⟨0, 0, 0, 0⟩⟩ : Timestamp).addInterval .debug ⟨2, 27, 0⟩ =
      .ok ⟨instant ⟨2021, 5, 25⟩ ⟨0, 0, 0, 0⟩⟩ := by decide

end Props
