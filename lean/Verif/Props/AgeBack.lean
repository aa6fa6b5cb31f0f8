import Verif.Props.Age
import Verif.Props.Builds

/-!
# C94: what subtracting an age from the later timestamp gives

`age` counts months and days forward from the earlier timestamp. Going back from the later one, the months
are taken off first, and the day of the month is moved to the end of the month if it does not exist
there. So the earlier timestamp comes back exactly if the later day of the month exists in that month.
-/

namespace Props
open Pg Spec

/-- The first day of the month that is reached by taking the months of the age off the later timestamp: that of the
earlier timestamp, or the month after it if a day was borrowed. -/
def ageBase (c1 : YMD) (k1 : Clock) (c2 : YMD) (k2 : Clock) : YMD :=
  if c2.d < c1.d ∨ (c2.d = c1.d ∧ k2.micros ≤ k1.micros) then ⟨c2.y, c2.m, 1⟩ else nextMonth c2

/-- The days lost because the later day of the month does not exist there. -/
def ageLoss (c1 : YMD) (k1 : Clock) (c2 : YMD) (k2 : Clock) : Int :=
  let b := ageBase c1 k1 c2 k2
  if c1.d ≤ monthDays b.y b.m then 0 else c1.d - monthDays b.y b.m

theorem ageBase_facts {c1 c2 : YMD} {k1 k2 : Clock} (r1 : c1.Real) (r2 : c2.Real) {m d us : Int}
    (ag : AgeOf c1 k1 c2 k2 m d us) :
    (ageBase c1 k1 c2 k2).d = 1 ∧
    c1.addMonths (-m) = ⟨(ageBase c1 k1 c2 k2).y, (ageBase c1 k1 c2 k2).m, c1.d - ageLoss c1 k1 c2 k2⟩ ∧
    dayNumber (ageBase c1 k1 c2 k2) * dayMicros + (c1.d - 1) * dayMicros + k1.micros - d * dayMicros - us = instant c2 k2 ∧
    dayNumber c2 ≤ dayNumber (ageBase c1 k1 c2 k2) + (c1.d - ageLoss c1 k1 c2 k2 - 1) ∧
    (c1.d - ageLoss c1 k1 c2 k2 = 1 ∨ ageLoss c1 k1 c2 k2 ≤ 3) ∧ 0 ≤ ageLoss c1 k1 c2 k2 := by
  obtain ⟨u1, u2, u3⟩ := ag
  have bd1 := real_bounds r1
  have bd2 := real_bounds r2
  have n := nextMonth_number r2
  have hmd := r2.2.2.2
  have g0 := monthDays_bounds c2.y c2.m
  have nd : (nextMonth c2).d = 1 := by
    unfold nextMonth YMD.addMonths; dsimp only
    have g := monthDays_bounds ((c2.y * 12 + (c2.m - 1) + 1) / 12) ((c2.y * 12 + (c2.m - 1) + 1) % 12 + 1)
    rw [if_pos (by omega)]
  have hk : (nextMonth c2).y * 12 + ((nextMonth c2).m - 1) = c2.y * 12 + (c2.m - 1) + 1 ∧ 1 ≤ (nextMonth c2).m ∧ (nextMonth c2).m ≤ 12 := by
    unfold nextMonth YMD.addMonths; dsimp only; omega
  have e2 : dayNumber ⟨c2.y, c2.m, 1⟩ = dayNumber c2 - (c2.d - 1) := by unfold dayNumber; dsimp only; omega
  unfold ageLoss instant dayMicros
  dsimp only
  by_cases hb : c2.d < c1.d ∨ (c2.d = c1.d ∧ k2.micros ≤ k1.micros)
  · have hbase : ageBase c1 k1 c2 k2 = ⟨c2.y, c2.m, 1⟩ := if_pos hb
    have hnb : ¬ (c1.d - c2.d - (if k1.micros < k2.micros then 1 else 0) < 0) := by split <;> omega
    rw [if_neg hnb] at u2 u3
    rw [hbase]
    dsimp only
    rw [e2]
    refine ⟨rfl, ?_, ?_, by split <;> omega, ?_, ?_⟩
    · unfold YMD.addMonths
      dsimp only
      rw [show (c1.y * 12 + (c1.m - 1) + -m) / 12 = c2.y by omega, show (c1.y * 12 + (c1.m - 1) + -m) % 12 + 1 = c2.m by omega]
      simp only [YMD.mk.injEq, true_and]
      split <;> omega
    · split at u1 <;> rename_i hlt <;> simp only [hlt, if_true, if_false] at u2 <;> omega
    · split <;> omega
    · split <;> omega
  · have hbase : ageBase c1 k1 c2 k2 = nextMonth c2 := if_neg hb
    have hnb : c1.d - c2.d - (if k1.micros < k2.micros then 1 else 0) < 0 := by split <;> omega
    rw [if_pos hnb] at u2 u3
    rw [hbase]
    have g := monthDays_bounds (nextMonth c2).y (nextMonth c2).m
    refine ⟨nd, ?_, ?_, by split <;> omega, ?_, ?_⟩
    · unfold YMD.addMonths
      dsimp only
      rw [show (c1.y * 12 + (c1.m - 1) + -m) / 12 = (nextMonth c2).y by omega,
        show (c1.y * 12 + (c1.m - 1) + -m) % 12 + 1 = (nextMonth c2).m by omega]
      simp only [YMD.mk.injEq, true_and]
      split <;> omega
    · split at u1 <;> rename_i hlt <;> simp only [hlt, if_true, if_false] at u2 <;> omega
    · split <;> omega
    · split <;> omega

/-- **C94.** Subtracting the age from the later timestamp gives the earlier one, moved back by the days of
`ageLoss`; there is no result if that is out of range. Adding the age taken the other way round is the same. -/
theorem C94_subtracted (p : Profile) (c1 c2 : YMD) (k1 k2 : Clock) (r1 : c1.Real) (r2 : c2.Real) (q1 : k1.Real) (q2 : k2.Real)
    (ha : TsRange (instant c1 k1)) (hb : TsRange (instant c2 k2)) (hle : instant c2 k2 ≤ instant c1 k1) :
    ∃ r s, (⟨instant c1 k1⟩ : Timestamp).age p ⟨instant c2 k2⟩ = .ok r ∧
      (⟨instant c2 k2⟩ : Timestamp).age p ⟨instant c1 k1⟩ = .ok s ∧
      (⟨instant c1 k1⟩ : Timestamp).subInterval p r = (⟨instant c1 k1⟩ : Timestamp).addInterval p s ∧
      (TsRange (instant c2 k2 - ageLoss c1 k1 c2 k2 * dayMicros) →
        (⟨instant c1 k1⟩ : Timestamp).subInterval p r = .ok ⟨instant c2 k2 - ageLoss c1 k1 c2 k2 * dayMicros⟩) ∧
      (¬ TsRange (instant c2 k2 - ageLoss c1 k1 c2 k2 * dayMicros) →
        ∀ t, (⟨instant c1 k1⟩ : Timestamp).subInterval p r ≠ .ok t) := by
  obtain ⟨c1', c2', m, d, us, r1', r2', d1, d2, l1, l2, l3, l4, l5, l6, ag, e1, e2⟩ :=
    age_both p ⟨instant c1 k1⟩ ⟨instant c2 k2⟩ ha hb hle
  obtain ⟨rfl, hk1⟩ := instant_inj r1' r1 (clockOf_real _) q1 (instant_fields d1)
  obtain ⟨rfl, hk2⟩ := instant_inj r2' r2 (clockOf_real _) q2 (instant_fields d2)
  rw [hk1, hk2] at ag
  have hneg : In32 (-m) ∧ In32 (-d) ∧ In64 (-us) := by unfold In32 In64; omega
  have hsub : ∀ p, (⟨instant c1' k1⟩ : Timestamp).subInterval p ⟨m, d, us⟩ =
      (⟨instant c1' k1⟩ : Timestamp).addInterval p ⟨-m, -d, -us⟩ := by
    intro p
    rw [C13_sub_is_add_neg]; exact if_pos hneg
  refine ⟨_, _, e1, e2, hsub p, ?_⟩
  have ha' := (tsRange_iff _).1 ha
  have hb' := (tsRange_iff _).1 hb
  have bd1 := real_bounds r1
  have bd2 := real_bounds r2
  have b1 := micros_bounds q1
  have b2 := micros_bounds q2
  obtain ⟨f1, f2, f3, f4, f5, f6⟩ := ageBase_facts r1 r2 ag
  generalize ageLoss c1' k1 c2' k2 = L at f2 f4 f5 f6 ⊢
  generalize ageBase c1' k1 c2' k2 = B at f1 f2 f3 f4
  have hL : L ≤ 30 := by omega
  have hdn : dayNumber (c1'.addMonths (-m)) = dayNumber B + (c1'.d - L - 1) := by
    rw [f2]; unfold dayNumber; rw [f1]; dsimp only; omega
  -- everything up to the day step, in either build
  have key : ∀ p, (p = .release ∨ TsRange (instant c2' k2 - L * dayMicros)) →
      (TsRange (instant c2' k2 - L * dayMicros) →
        (⟨instant c1' k1⟩ : Timestamp).addInterval p ⟨-m, -d, -us⟩ = .ok ⟨instant c2' k2 - L * dayMicros⟩) ∧
      (¬ TsRange (instant c2' k2 - L * dayMicros) →
        ((⟨instant c1' k1⟩ : Timestamp).addInterval p ⟨-m, -d, -us⟩).IsErr) := by
    intro p hp
    obtain ⟨x, t, rx, qt, eqt, s1, s2⟩ := C10_add_months p ⟨instant c1' k1⟩ (-m) ha hneg.1
    obtain ⟨rfl, rfl⟩ := instant_inj rx r1 qt q1 eqt
    have hin : instant (x.addMonths (-m)) t + -d * dayMicros + -us = instant c2' k2 - L * dayMicros := by
      rw [← f3]
      unfold instant
      rw [hdn]; unfold dayMicros; omega
    have hnlt : ¬ dayNumber x < dayNumber (x.addMonths (-m)) := by
      intro hlt
      have h := (dayNumber_lt_iff r1 (addMonths_real r1 _)).1 hlt
      unfold YMD.lt YMD.addMonths at h
      dsimp only at h
      split at h <;> omega
    have hmr : TsRange (instant (x.addMonths (-m)) t) := by
      unfold instant dayMicros at *
      rw [tsRange_iff]; omega
    have hx' := (tsRange_iff _).1 hmr
    rw [C12_steps p ⟨instant x t⟩ ⟨-m, -d, -us⟩ (.inl ha)]
    simp only
    rw [s1 hmr, Res.bind_ok]
    have htd : targetDay (instant (x.addMonths (-m)) t) (-d) = dayNumber (x.addMonths (-m)) - d + 2451545 := by
      unfold targetDay instant
      rw [show dayNumber firstDay = -2451545 from by decide]
      unfold dayMicros
      omega
    have hlow : -2451545 ≤ dayNumber c2' := by
      unfold instant dayMicros at hb'; omega
    have hday := C11_partial p ⟨instant (x.addMonths (-m)) t⟩ (-d) hmr hneg.2.1
      (fun hpd => by
        rcases hp with hp | hp
        · rw [hp] at hpd; cases hpd
        · have hp' := (tsRange_iff _).1 hp
          rw [← hin] at hp'
          simp only
          rw [htd]
          unfold instant dayMicros at hp'; omega)
      (fun _ => by
        simp only
        rw [htd]; omega)
    have htime : ∀ h : TsRange (instant (x.addMonths (-m)) t + -d * dayMicros), _ :=
      fun h => C12_time_step_partial p ⟨instant (x.addMonths (-m)) t + -d * dayMicros⟩ (-us) h
        (by simp only; rw [hin]; unfold In64 dayMicros; omega)
    simp only [hin] at htime
    constructor
    · intro hr
      have hr' := (tsRange_iff _).1 hr
      have hdr : TsRange (instant (x.addMonths (-m)) t + -d * dayMicros) := by
        rw [← hin] at hr'
        rw [tsRange_iff]; unfold dayMicros at *; omega
      rw [hday.1 hdr, Res.bind_ok]
      exact (htime hdr).1 hr
    · intro hr
      by_cases hdr : TsRange (instant (x.addMonths (-m)) t + -d * dayMicros)
      · rw [hday.1 hdr, Res.bind_ok]
        exact (htime hdr).2 hr
      · obtain ⟨e, he⟩ := hday.2 hdr
        rw [he, Res.bind_err]
        exact ⟨_, rfl⟩
  constructor
  · intro hr
    rw [hsub]; exact (key p (.inr hr)).1 hr
  · intro hr t ht
    rw [hsub] at ht
    obtain ⟨e, he⟩ := (key .release (.inl rfl)).2 hr
    have hs := (C93_timestamp ⟨instant c1' k1⟩ ⟨0⟩ ⟨-m, -d, -us⟩ ⟨0⟩ ⟨0⟩ 0 .unit .day).1
    unfold SameBuilds at hs; dsimp only at hs
    cases p with
    | release => rw [he] at ht; cases ht
    | debug =>
      have := hs (by rw [ht]; intro h; cases h)
      rw [he, ht] at this; cases this

/-- **C94.** Subtracting the age from the later timestamp gives the earlier one back exactly if the later day of the month
exists in the month that is reached by taking off the months. -/
theorem C94_back_iff (p : Profile) (c1 c2 : YMD) (k1 k2 : Clock) (r1 : c1.Real) (r2 : c2.Real) (q1 : k1.Real) (q2 : k2.Real)
    (ha : TsRange (instant c1 k1)) (hb : TsRange (instant c2 k2)) (hle : instant c2 k2 ≤ instant c1 k1) :
    ∃ r, (⟨instant c1 k1⟩ : Timestamp).age p ⟨instant c2 k2⟩ = .ok r ∧
      ((⟨instant c1 k1⟩ : Timestamp).subInterval p r = .ok ⟨instant c2 k2⟩ ↔
        c1.d ≤ monthDays (ageBase c1 k1 c2 k2).y (ageBase c1 k1 c2 k2).m) := by
  obtain ⟨r, s, e, -, -, h1, h2⟩ := C94_subtracted p c1 c2 k1 k2 r1 r2 q1 q2 ha hb hle
  refine ⟨r, e, ?_⟩
  by_cases hc : c1.d ≤ monthDays (ageBase c1 k1 c2 k2).y (ageBase c1 k1 c2 k2).m
  · have hz : ageLoss c1 k1 c2 k2 = 0 := if_pos hc
    rw [hz, Int.zero_mul, Int.sub_zero] at h1
    exact ⟨fun _ => hc, fun _ => h1 hb⟩
  · have hz : ageLoss c1 k1 c2 k2 = c1.d - monthDays (ageBase c1 k1 c2 k2).y (ageBase c1 k1 c2 k2).m := if_neg hc
    refine ⟨fun h => ?_, fun h => absurd h hc⟩
    exfalso
    by_cases hr : TsRange (instant c2 k2 - ageLoss c1 k1 c2 k2 * dayMicros)
    · rw [h1 hr] at h
      simp only [Res.ok.injEq, Timestamp.mk.injEq] at h
      rw [hz] at h
      unfold dayMicros at h; omega
    · exact h2 hr _ h

/-- **C94.** So it always comes back from the first 28 days of a month. -/
theorem C94_back (p : Profile) (c1 c2 : YMD) (k1 k2 : Clock) (r1 : c1.Real) (r2 : c2.Real) (q1 : k1.Real) (q2 : k2.Real)
    (ha : TsRange (instant c1 k1)) (hb : TsRange (instant c2 k2)) (hle : instant c2 k2 ≤ instant c1 k1) (h28 : c1.d ≤ 28) :
    ∃ r, (⟨instant c1 k1⟩ : Timestamp).age p ⟨instant c2 k2⟩ = .ok r ∧
      (⟨instant c1 k1⟩ : Timestamp).subInterval p r = .ok ⟨instant c2 k2⟩ := by
  obtain ⟨r, e, h⟩ := C94_back_iff p c1 c2 k1 k2 r1 r2 q1 q2 ha hb hle
  have g := monthDays_bounds (ageBase c1 k1 c2 k2).y (ageBase c1 k1 c2 k2).m
  exact ⟨r, e, h.2 (by omega)⟩

/-- **C94 is violated** from the last days of long months: 31 March is 1 month and 3 days after 28 February, and
that much before 31 March is 25 February. Where the earlier timestamp is at the very start of the range there is
no result at all, and a debug build panics. -/
theorem C94_violated (p : Profile) :
    (⟨instant ⟨2021, 3, 31⟩ ⟨0, 0, 0, 0⟩⟩ : Timestamp).age p ⟨instant ⟨2021, 2, 28⟩ ⟨0, 0, 0, 0⟩⟩ = .ok ⟨1, 3, 0⟩ ∧
    (⟨instant ⟨2021, 3, 31⟩ ⟨0, 0, 0, 0⟩⟩ : Timestamp).subInterval p ⟨1, 3, 0⟩ = .ok ⟨instant ⟨2021, 2, 25⟩ ⟨0, 0, 0, 0⟩⟩ ∧
    (⟨instant ⟨-4713, 12, 31⟩ ⟨0, 0, 0, 0⟩⟩ : Timestamp).age p ⟨instant ⟨-4713, 11, 24⟩ ⟨0, 0, 0, 0⟩⟩ = .ok ⟨1, 7, 0⟩ ∧
    (⟨instant ⟨-4713, 12, 31⟩ ⟨0, 0, 0, 0⟩⟩ : Timestamp).subInterval .debug ⟨1, 7, 0⟩ = .panic ∧
    (⟨instant ⟨-4713, 12, 31⟩ ⟨0, 0, 0, 0⟩⟩ : Timestamp).subInterval .release ⟨1, 7, 0⟩ = .err .invalid := by
  cases p <;> decide

example : TsRange (instant ⟨2021, 3, 28⟩ ⟨5, 0, 0, 0⟩) ∧ TsRange (instant ⟨2020, 2, 29⟩ ⟨6, 0, 0, 0⟩) ∧
    (⟨instant ⟨2021, 3, 28⟩ ⟨5, 0, 0, 0⟩⟩ : Timestamp).age .debug ⟨instant ⟨2020, 2, 29⟩ ⟨6, 0, 0, 0⟩⟩ =
      .ok ⟨12, 27, 82800000000⟩ ∧
    (⟨instant ⟨2021, 3, 28⟩ ⟨5, 0, 0, 0⟩⟩ : Timestamp).subInterval .debug ⟨12, 27, 82800000000⟩ =
      .ok ⟨instant ⟨2020, 2, 29⟩ ⟨6, 0, 0, 0⟩⟩ ∧
    ageBase ⟨2021, 3, 28⟩ ⟨5, 0, 0, 0⟩ ⟨2020, 2, 29⟩ ⟨6, 0, 0, 0⟩ = ⟨2020, 3, 1⟩ := by decide

end Props
