import Verif.Spec.Steps
import Verif.Props.Timestamps
import Verif.Props.TimestampArith

/-!
# Property C78: adding intervals respects order and sums
-/

namespace Props
open Pg Spec

theorem instant_unique {c c' : YMD} {k k' : Clock} (hc : c.Real) (hc' : c'.Real) (hk : k.Real) (hk' : k'.Real)
    (h : instant c k = instant c' k') : c = c' ∧ k = k' := by
  have m1 := micros_bounds hk
  have m2 := micros_bounds hk'
  unfold instant dayMicros at h
  have e : dayNumber c = dayNumber c' := by omega
  refine ⟨dayNumber_inj hc hc' e, ?_⟩
  rw [e] at h
  obtain ⟨a1, a2, a3, a4⟩ := k
  obtain ⟨b1, b2, b3, b4⟩ := k'
  simp only [Clock.micros, Clock.Real, Clock.mk.injEq] at *
  omega

theorem instant_before_iff {c c' : YMD} {k k' : Clock} (hc : c.Real) (hc' : c'.Real) (hk : k.Real) (hk' : k'.Real) :
    instant c k < instant c' k' ↔ c.lt c' ∨ (c = c' ∧ k.micros < k'.micros) := by
  have m1 := micros_bounds hk
  have m2 := micros_bounds hk'
  rw [← dayNumber_lt_iff hc hc']
  constructor
  · intro h
    rcases Int.lt_trichotomy (dayNumber c) (dayNumber c') with e | e | e
    · exact .inl e
    · refine .inr ⟨dayNumber_inj hc hc' e, ?_⟩
      unfold instant at h
      rw [e] at h
      omega
    · unfold instant dayMicros at h; omega
  · rintro (h | ⟨rfl, h⟩) <;> (unfold instant dayMicros; omega)

/-- **C78.** If no step leaves the range, adding an interval leads where its months, days and duration lead. -/
theorem C78_lands (p : Profile) (t : Timestamp) (i : Interval) (r : Int) (h : Lands t.v i.month i.day i.time r)
    (hm : In32 i.month) (hd : In32 i.day) : t.addInterval p i = .ok ⟨r⟩ := by
  obtain ⟨c, k, hc, hk, hi, ht, h1, h2, hr, h3⟩ := h
  rw [C12_steps p t i (.inl ht)]
  obtain ⟨c', k', hc', hk', hi', hok, -⟩ := C10_add_months p t i.month ht hm
  obtain ⟨rfl, rfl⟩ := instant_unique hc' hc hk' hk (hi'.trans hi.symm)
  have k1 := (tsRange_iff _).1 h1
  have k2 := (tsRange_iff _).1 h2
  have k3 := (tsRange_iff _).1 h3
  rw [hok h1, Res.bind_ok]
  have hday := (C11_partial p ⟨instant (c'.addMonths i.month) k'⟩ i.day h1 hd ?_ ?_).1 h2
  · rw [hday, Res.bind_ok]
    have ht := (C12_time_step_partial p ⟨instant (c'.addMonths i.month) k' + i.day * dayMicros⟩ i.time h2 (by
      rw [← hr]; unfold In64; omega)).1 (by rw [← hr]; exact h3)
    rw [ht, hr]
  all_goals
    rintro -
    unfold targetDay
    rw [show dayNumber firstDay = -2451545 from by decide]
    dsimp only at k2 ⊢
    generalize instant (c'.addMonths i.month) k' = T at *
    unfold dayMicros at *
    omega

example : Lands 633744000000000 1 (-1) (-5) 636163199999995 :=
  ⟨⟨2020, 1, 31⟩, ⟨0, 0, 0, 0⟩, by decide, by decide, by decide, by decide, by decide, by decide, by decide, by decide⟩

/-- **C78.** Without months the order of timestamps is kept, and so is their distance. -/
theorem C78_order (p p' : Profile) (t t' : Timestamp) (i : Interval) (hm : i.month = 0) (hd : In32 i.day) (ht : TsRange t.v)
    (ht' : TsRange t'.v) (h1 : TsRange (t.v + i.day * dayMicros)) (h1' : TsRange (t'.v + i.day * dayMicros))
    (h2 : TsRange (t.v + i.day * dayMicros + i.time)) (h2' : TsRange (t'.v + i.day * dayMicros + i.time)) :
    ∃ r r' : Timestamp, t.addInterval p i = .ok r ∧ t'.addInterval p' i = .ok r' ∧ (r.v < r'.v ↔ t.v < t'.v) ∧
      r'.v - r.v = t'.v - t.v := by
  have key : ∀ (p : Profile) (t : Timestamp), TsRange t.v → TsRange (t.v + i.day * dayMicros) → TsRange (t.v + i.day * dayMicros + i.time) →
      t.addInterval p i = .ok ⟨t.v + i.day * dayMicros + i.time⟩ := by
    intro p t ht h1 h2
    refine C78_lands p t i _ ?_ (by rw [hm]; decide) hd
    obtain ⟨c, hr, hn, -⟩ := fields_spec p ht
    have hi := instant_fields hn
    have e : c.addMonths 0 = c := by
      have hb := real_bounds hr
      obtain ⟨y, m, d⟩ := c
      have hd := hr.2.2.2
      unfold YMD.addMonths
      dsimp only at hb hd ⊢
      have e1 : (y * 12 + (m - 1) + 0) / 12 = y := by omega
      have e2 : (y * 12 + (m - 1) + 0) % 12 + 1 = m := by omega
      rw [e1, e2, if_pos hd]
    rw [hm]
    exact ⟨c, clockOf t.v, hr, clockOf_real _, hi, ht, by rw [e, hi]; exact ht, by rw [e, hi]; exact h1, by rw [e, hi], h2⟩
  refine ⟨_, _, key p t ht h1 h2, key p' t' ht' h1' h2', ?_, ?_⟩ <;> (dsimp only; omega)

example : TsRange 5 ∧ TsRange (5 + -3 * dayMicros) ∧ TsRange (5 + -3 * dayMicros + 7) ∧ TsRange 6 ∧ In32 (-3) := by decide

theorem addMonths_le {c c' : YMD} (hc : c.Real) (hc' : c'.Real) (h : c.lt c') (n : Int) :
    (c.addMonths n).lt (c'.addMonths n) ∨ c.addMonths n = c'.addMonths n := by
  have b1 := real_bounds hc
  have b2 := real_bounds hc'
  obtain ⟨y, m, d⟩ := c
  obtain ⟨y', m', d'⟩ := c'
  unfold YMD.lt YMD.addMonths at *
  dsimp only at *
  by_cases e : y = y' ∧ m = m'
  · obtain ⟨rfl, rfl⟩ := e
    generalize monthDays _ _ = M
    simp only [YMD.mk.injEq, Int.lt_irrefl, true_and, false_or]
    split <;> split <;> omega
  · left
    by_cases k : (y * 12 + (m - 1) + n) / 12 < (y' * 12 + (m' - 1) + n) / 12
    · exact .inl k
    · right
      refine ⟨by omega, .inl (by omega)⟩

/-- **C78.** Months keep the order of the days: a timestamp on an earlier day does not move to a later day than
the other one; if the clock is not later either, the order of the timestamps is kept. -/
theorem C78_months (p p' : Profile) (t t' : Timestamp) (c c' : YMD) (k k' : Clock) (hc : c.Real) (hc' : c'.Real) (hk : k.Real)
    (hk' : k'.Real) (ht : instant c k = t.v) (ht' : instant c' k' = t'.v) (hr : TsRange t.v) (hr' : TsRange t'.v) (n : Int) (hn : In32 n)
    (h1 : TsRange (instant (c.addMonths n) k)) (h1' : TsRange (instant (c'.addMonths n) k')) (hle : c.lt c' ∨ c = c') :
    ∃ r r' : Timestamp, t.addInterval p ⟨n, 0, 0⟩ = .ok r ∧ t'.addInterval p' ⟨n, 0, 0⟩ = .ok r' ∧ r.v / dayMicros ≤ r'.v / dayMicros ∧
      (k.micros ≤ k'.micros → r.v ≤ r'.v) ∧ (c.d ≤ 28 → c'.d ≤ 28 → (r.v < r'.v ↔ t.v < t'.v)) := by
  have e1 := C78_lands p t ⟨n, 0, 0⟩ (instant (c.addMonths n) k) ⟨c, k, hc, hk, ht, hr, h1, by simpa using h1, by simp, h1⟩ hn (show In32 0 by decide)
  have e2 := C78_lands p' t' ⟨n, 0, 0⟩ (instant (c'.addMonths n) k') ⟨c', k', hc', hk', ht', hr', h1', by simpa using h1', by simp, h1'⟩ hn
    (show In32 0 by decide)
  have a1 := addMonths_real hc n
  have a2 := addMonths_real hc' n
  have m1 := micros_bounds hk
  have m2 := micros_bounds hk'
  have hd : dayNumber (c.addMonths n) ≤ dayNumber (c'.addMonths n) := by
    rcases hle with hle | rfl
    · rcases addMonths_le hc hc' hle n with h | h
      · exact Int.le_of_lt ((dayNumber_lt_iff a1 a2).2 h)
      · rw [h]; exact Int.le_refl _
    · exact Int.le_refl _
  refine ⟨_, _, e1, e2, ?_, ?_, ?_⟩
  · unfold instant dayMicros; dsimp only; omega
  · intro h
    unfold instant dayMicros; dsimp only; omega
  · intro d1 d2
    dsimp only
    rw [← ht, ← ht', instant_before_iff a1 a2 hk hk', instant_before_iff hc hc' hk hk']
    have s : (c.addMonths n).lt (c'.addMonths n) ∨ (c.addMonths n = c'.addMonths n ∧ k.micros < k'.micros) ↔
        c.lt c' ∨ (c = c' ∧ k.micros < k'.micros) := by
      have g1 := monthDays_bounds ((c.y * 12 + (c.m - 1) + n) / 12) ((c.y * 12 + (c.m - 1) + n) % 12 + 1)
      have g2 := monthDays_bounds ((c'.y * 12 + (c'.m - 1) + n) / 12) ((c'.y * 12 + (c'.m - 1) + n) % 12 + 1)
      have b1 := real_bounds hc
      have b2 := real_bounds hc'
      obtain ⟨y, m, d⟩ := c
      obtain ⟨y', m', d'⟩ := c'
      unfold YMD.lt YMD.addMonths
      dsimp only at *
      rw [if_pos (by omega), if_pos (by omega)]
      simp only [YMD.mk.injEq]
      have q1 : (y * 12 + (m - 1) + n) / 12 * 12 + (y * 12 + (m - 1) + n) % 12 = y * 12 + (m - 1) + n := by omega
      have q2 : (y' * 12 + (m' - 1) + n) / 12 * 12 + (y' * 12 + (m' - 1) + n) % 12 = y' * 12 + (m' - 1) + n := by omega
      omega
    exact s

example : TsRange (instant (YMD.addMonths ⟨2024, 1, 31⟩ 1) ⟨1, 0, 0, 0⟩) ∧ (⟨2024, 1, 31⟩ : YMD).Real ∧
    (⟨2024, 1, 30⟩ : YMD).lt ⟨2024, 1, 31⟩ ∧ (⟨1, 0, 0, 0⟩ : Clock).Real := by decide

/-- **C78.** At the end of a month the order of two timestamps may be reversed: 23:00 on January 30 is before 01:00
on January 31, but one month later both are on the last day of February and 23:00 is after 01:00. -/
theorem C78_reversed (p : Profile) :
    instant ⟨2023, 1, 30⟩ ⟨23, 0, 0, 0⟩ < instant ⟨2023, 1, 31⟩ ⟨1, 0, 0, 0⟩ ∧
    (⟨instant ⟨2023, 1, 30⟩ ⟨23, 0, 0, 0⟩⟩ : Timestamp).addInterval p ⟨1, 0, 0⟩ = .ok ⟨instant ⟨2023, 2, 28⟩ ⟨23, 0, 0, 0⟩⟩ ∧
    (⟨instant ⟨2023, 1, 31⟩ ⟨1, 0, 0, 0⟩⟩ : Timestamp).addInterval p ⟨1, 0, 0⟩ = .ok ⟨instant ⟨2023, 2, 28⟩ ⟨1, 0, 0, 0⟩⟩ ∧
    instant ⟨2023, 2, 28⟩ ⟨1, 0, 0, 0⟩ < instant ⟨2023, 2, 28⟩ ⟨23, 0, 0, 0⟩ := by
  refine ⟨by decide, ?_, ?_, by decide⟩ <;> (cases p <;> decide +kernel)

/-- **C78.** Adding two intervals one after the other is adding their sum, if the second one has no months (and no
step leaves the range). -/
theorem C78_sum (p : Profile) (t r : Timestamp) (i j s : Interval) (x y : Int) (hi : In32 i.month ∧ In32 i.day) (hj : In32 j.day)
    (hm : j.month = 0) (hs : i.addInterval j = .ok s) (hx : Lands t.v i.month i.day i.time x) (hy : Lands x 0 j.day j.time y)
    (hmid : ∀ c k, c.Real → k.Real → instant c k = t.v → TsRange (instant (c.addMonths i.month) k + (i.day + j.day) * dayMicros))
    (hr : t.addInterval p i = .ok r) : r.addInterval p j = t.addInterval p s ∧ t.addInterval p s = .ok ⟨y⟩ := by
  have e := C78_lands p t i x hx hi.1 hi.2
  rw [hr] at e
  injection e with e
  subst e
  have e := C78_lands p ⟨x⟩ j y (by rw [hm]; exact hy) (by rw [hm]; decide) hj
  rw [e]
  rw [(C15_exact_or_overflow i j).1] at hs
  split at hs
  · rename_i hin
    injection hs with hs
    subst hs
    have : t.addInterval p ⟨i.month + j.month, i.day + j.day, i.time + j.time⟩ = .ok ⟨y⟩ := by
      obtain ⟨c, k, hc, hk, h0, ht, h1, h2, rfl, h3⟩ := hx
      obtain ⟨c', k', hc', hk', h0', ht', h1', h2', rfl, h3'⟩ := hy
      have z : c'.addMonths 0 = c' := by
        have hb := real_bounds hc'
        obtain ⟨y, m, d⟩ := c'
        have hd := hc'.2.2.2
        unfold YMD.addMonths
        dsimp only at hb hd ⊢
        have e1 : (y * 12 + (m - 1) + 0) / 12 = y := by omega
        have e2 : (y * 12 + (m - 1) + 0) % 12 + 1 = m := by omega
        rw [e1, e2, if_pos hd]
      rw [z, h0'] at h1' h2' h3' ⊢
      have q := hmid c k hc hk h0
      refine C78_lands p t _ _ ⟨c, k, hc, hk, h0, ht, ?_, ?_, ?_, h3'⟩ hin.1 hin.2.1
      · dsimp only; rw [hm, Int.add_zero]; exact h1
      · dsimp only; rw [hm, Int.add_zero]; exact q
      · dsimp only
        rw [hm, Int.add_zero, Int.add_mul]
        omega
    exact ⟨this.symm, this⟩
  · cases hs

example : (⟨1, 2, 3⟩ : Interval).addInterval ⟨0, 4, 5⟩ = .ok ⟨1, 6, 8⟩ ∧
    (⟨633744000000000⟩ : Timestamp).addInterval .debug ⟨1, 2, 3⟩ = .ok ⟨636422400000003⟩ ∧
    (⟨636422400000003⟩ : Timestamp).addInterval .debug ⟨0, 4, 5⟩ = .ok ⟨636768000000008⟩ ∧
    (⟨633744000000000⟩ : Timestamp).addInterval .debug ⟨1, 6, 8⟩ = .ok ⟨636768000000008⟩ := by decide +kernel
example : Lands 633744000000000 1 2 3 636422400000003 :=
  ⟨⟨2020, 1, 31⟩, ⟨0, 0, 0, 0⟩, by decide, by decide, by decide, by decide, by decide, by decide, by decide, by decide⟩
example : Lands 636422400000003 0 4 5 636768000000008 :=
  ⟨⟨2020, 3, 2⟩, ⟨0, 0, 0, 3⟩, by decide, by decide, by decide, by decide, by decide, by decide, by decide, by decide⟩
example : ∀ c k, c.Real → k.Real → instant c k = 633744000000000 → TsRange (instant (c.addMonths 1) k + (2 + 4) * dayMicros) := by
  intro c k hc hk h
  obtain ⟨rfl, rfl⟩ := instant_unique (c' := ⟨2020, 1, 31⟩) (k' := ⟨0, 0, 0, 0⟩) hc (by decide) hk (by decide) (h.trans (by decide))
  decide

theorem addMonths_add {c : YMD} (hc : c.Real) (h : c.d ≤ 28) (n m : Int) : (c.addMonths n).addMonths m = c.addMonths (n + m) := by
  have g1 := monthDays_bounds ((c.y * 12 + (c.m - 1) + n) / 12) ((c.y * 12 + (c.m - 1) + n) % 12 + 1)
  have hb := real_bounds hc
  obtain ⟨y, mo, d⟩ := c
  have e : (⟨y, mo, d⟩ : YMD).addMonths n = ⟨(y * 12 + (mo - 1) + n) / 12, (y * 12 + (mo - 1) + n) % 12 + 1, d⟩ := by
    unfold YMD.addMonths
    dsimp only at *
    rw [if_pos (show d ≤ _ by omega)]
  rw [e]
  unfold YMD.addMonths
  dsimp only at *
  have e1 : (y * 12 + (mo - 1) + n) / 12 * 12 + ((y * 12 + (mo - 1) + n) % 12 + 1 - 1) + m = y * 12 + (mo - 1) + (n + m) := by omega
  rw [e1]

/-- **C78.** For the days 1 to 28 of a month, adding `n` months and then an interval is adding their sum; in particular
adding `n` months and then `-n` months leads back. -/
theorem C78_months_sum (p : Profile) (t r : Timestamp) (n : Int) (j s : Interval) (c : YMD) (k : Clock) (x y : Int) (hc : c.Real)
    (hk : k.Real) (ht : instant c k = t.v) (h28 : c.d ≤ 28) (hn : In32 n) (hj : In32 j.month ∧ In32 j.day)
    (hs : (⟨n, 0, 0⟩ : Interval).addInterval j = .ok s) (hx : Lands t.v n 0 0 x) (hy : Lands x j.month j.day j.time y)
    (hr : t.addInterval p ⟨n, 0, 0⟩ = .ok r) : r.addInterval p j = t.addInterval p s ∧ t.addInterval p s = .ok ⟨y⟩ := by
  have e := C78_lands p t ⟨n, 0, 0⟩ x hx hn (show In32 0 by decide)
  rw [hr] at e
  injection e with e
  subst e
  rw [C78_lands p ⟨x⟩ j y hy hj.1 hj.2]
  rw [(C15_exact_or_overflow _ _).1] at hs
  split at hs
  · rename_i hin
    injection hs with hs
    subst hs
    have : t.addInterval p ⟨n + j.month, 0 + j.day, 0 + j.time⟩ = .ok ⟨y⟩ := by
      obtain ⟨c1, k1, hc1, hk1, h0, hT, h1, h2, rfl, h3⟩ := hx
      obtain ⟨rfl, rfl⟩ := instant_unique hc1 hc hk1 hk (h0.trans ht.symm)
      obtain ⟨c', k', hc', hk', h0', ht', h1', h2', rfl, h3'⟩ := hy
      have h0'' : instant c' k' = instant (c1.addMonths n) k1 := by rw [h0']; simp
      obtain ⟨rfl, rfl⟩ := instant_unique hc' (addMonths_real hc n) hk' hk1 h0''
      rw [addMonths_add hc1 h28] at *
      refine C78_lands p t _ _ ⟨c1, k', hc1, hk', h0, hT, h1', ?_, ?_, h3'⟩ hin.1 hin.2.1
      · dsimp only; rw [Int.zero_add]; exact h2'
      · dsimp only; rw [Int.zero_add, Int.zero_add]
    exact ⟨this.symm, this⟩
  · cases hs

/-- **C78.** From the end of a month a month forth and a month back need not lead back: January 31, February 29,
January 29. -/
theorem C78_month_end (p : Profile) :
    (⟨instant ⟨2024, 1, 31⟩ ⟨0, 0, 0, 0⟩⟩ : Timestamp).addInterval p ⟨1, 0, 0⟩ = .ok ⟨instant ⟨2024, 2, 29⟩ ⟨0, 0, 0, 0⟩⟩ ∧
    (⟨instant ⟨2024, 2, 29⟩ ⟨0, 0, 0, 0⟩⟩ : Timestamp).subInterval p ⟨1, 0, 0⟩ = .ok ⟨instant ⟨2024, 1, 29⟩ ⟨0, 0, 0, 0⟩⟩ := by
  refine ⟨?_, ?_⟩ <;> (cases p <;> decide +kernel)

example : Lands (instant ⟨2024, 1, 28⟩ ⟨1, 2, 3, 4⟩) 1 0 0 (instant ⟨2024, 2, 28⟩ ⟨1, 2, 3, 4⟩) :=
  ⟨⟨2024, 1, 28⟩, ⟨1, 2, 3, 4⟩, by decide, by decide, by decide, by decide, by decide, by decide, by decide, by decide⟩
example : Lands (instant ⟨2024, 2, 28⟩ ⟨1, 2, 3, 4⟩) (-1) 3 (-4) (instant ⟨2024, 1, 31⟩ ⟨1, 2, 3, 0⟩) :=
  ⟨⟨2024, 2, 28⟩, ⟨1, 2, 3, 4⟩, by decide, by decide, by decide, by decide, by decide, by decide, by decide, by decide⟩

end Props
