import Verif.Props.Steps
import Verif.Props.Truncate
import Verif.Spec.UnitLength

/-!
# Property C88: truncating commutes with adding whole units
-/

namespace Props
open Pg Spec

/-- `truncate` from the start of the unit. -/
theorem truncate_floor (p : Profile) {u : DateUnit} (hu : TruncUnit u) {x g : Int} (h : TsRange x) (hg : UnitFloor u x g) :
    (TsRange g → (⟨x⟩ : Timestamp).truncate p .unit u = .ok ⟨g⟩) ∧
      (¬ TsRange g → ((⟨x⟩ : Timestamp).truncate p .unit u).IsErr) := by
  obtain ⟨g', hg', h1, h2⟩ := C24_start_of_unit p hu ⟨x⟩ h
  obtain rfl := unitFloor_unique hg hg'
  exact ⟨h1, h2⟩

/-- Both give the same value, or both are errors. -/
def SameValue (a b : Res Timestamp) : Prop := (∃ x, a = .ok x ∧ b = .ok x) ∨ a.IsErr ∧ b.IsErr

theorem truncDay_months {u : DateUnit} (hu : TruncUnit u) {c : YMD} (hc : c.Real) (k : Int) :
    truncDayOf u (c.addMonths (k * unitMonths u)) = (truncDayOf u c).addMonths (k * unitMonths u) := by
  have hb := real_bounds hc
  unfold TruncUnit at hu
  simp only [List.mem_cons, List.not_mem_nil, or_false] at hu
  have one : ∀ y m : Int, (if (1 : Int) ≤ monthDays y m then (1 : Int) else monthDays y m) = 1 := by
    intro y m
    have := monthDays_bounds y m
    rw [if_pos (by omega)]
  rcases hu with rfl | rfl | rfl | rfl | rfl | rfl | rfl | rfl | rfl | rfl | rfl | rfl <;>
    first
      | rfl
      | (simp only [truncDayOf, unitMonths, YMD.addMonths, YMD.mk.injEq]
         refine ⟨?_, ?_, (one _ _).symm⟩ <;> first | trivial | omega)

/-- **C88.** Adding `k` times the months of a unit (one month for all units up to the month) and truncating to the unit gives
the same as truncating first and adding then. -/
theorem C88_months (p : Profile) {u : DateUnit} (hu : TruncUnit u) (t r g : Timestamp) (k n : Int)
    (hn : n = k * unitMonths u) (h32 : In32 n) (ht : TsRange t.v) (hr : t.addInterval p ⟨n, 0, 0⟩ = .ok r)
    (hg : t.truncate p .unit u = .ok g) :
    SameValue (r.truncate p .unit u) (g.addInterval p ⟨n, 0, 0⟩) := by
  obtain ⟨c, q, hc, hq, hi, h1, h2⟩ := C10_add_months p t n ht h32
  have hfl := truncOf_floor hu hc hq
  have hrr : TsRange (instant (c.addMonths n) q) := by
    by_cases h : TsRange (instant (c.addMonths n) q)
    · exact h
    · obtain ⟨e, he⟩ := h2 h
      rw [he] at hr; cases hr
  rw [h1 hrr, Res.ok.injEq] at hr
  subst hr
  have hgg : g = ⟨instant (truncDayOf u c) (truncClockOf u q)⟩ ∧ TsRange (instant (truncDayOf u c) (truncClockOf u q)) := by
    obtain ⟨t⟩ := t
    simp only at hi ht
    subst hi
    obtain ⟨a, b⟩ := truncate_floor p hu ht hfl
    by_cases h : TsRange (instant (truncDayOf u c) (truncClockOf u q))
    · rw [a h, Res.ok.injEq] at hg
      exact ⟨hg.symm, h⟩
    · obtain ⟨e, he⟩ := b h
      rw [he] at hg; cases hg
  obtain ⟨rfl, hgr⟩ := hgg
  have hfl2 := truncOf_floor hu (addMonths_real hc n) hq
  obtain ⟨a, b⟩ := truncate_floor p hu hrr hfl2
  obtain ⟨c', q', hc', hq', hi', h1', h2'⟩ :=
    C10_add_months p ⟨instant (truncDayOf u c) (truncClockOf u q)⟩ n hgr h32
  obtain ⟨rfl, rfl⟩ := instant_unique hc' (truncDayOf_real hc) hq' (truncClockOf_real hq) hi'
  have e : truncDayOf u (c.addMonths n) = (truncDayOf u c).addMonths n := by rw [hn]; exact truncDay_months hu hc k
  rw [e] at a b
  by_cases h : TsRange (instant ((truncDayOf u c).addMonths n) (truncClockOf u q))
  · exact Or.inl ⟨_, a h, h1' h⟩
  · exact Or.inr ⟨b h, h2' h⟩

/-- Witnesses: 2020-08-31 13:45:00 and two decades; an error on both sides where
the start of the month lies before the first supported day. -/
example : TruncUnit .decade ∧ unitMonths .decade = 120 ∧ TsRange (instant ⟨2020, 8, 31⟩ ⟨13, 45, 0, 0⟩) ∧
    (⟨instant ⟨2020, 8, 31⟩ ⟨13, 45, 0, 0⟩⟩ : Timestamp).addInterval .debug ⟨240, 0, 0⟩ =
      .ok ⟨instant ⟨2040, 8, 31⟩ ⟨13, 45, 0, 0⟩⟩ ∧
    (⟨instant ⟨2020, 8, 31⟩ ⟨13, 45, 0, 0⟩⟩ : Timestamp).truncate .debug .unit .decade =
      .ok ⟨instant ⟨2020, 1, 1⟩ ⟨0, 0, 0, 0⟩⟩ ∧
    (⟨instant ⟨2040, 8, 31⟩ ⟨13, 45, 0, 0⟩⟩ : Timestamp).truncate .debug .unit .decade =
      .ok ⟨instant ⟨2040, 1, 1⟩ ⟨0, 0, 0, 0⟩⟩ ∧
    (⟨instant ⟨2020, 1, 1⟩ ⟨0, 0, 0, 0⟩⟩ : Timestamp).addInterval .debug ⟨240, 0, 0⟩ =
      .ok ⟨instant ⟨2040, 1, 1⟩ ⟨0, 0, 0, 0⟩⟩ ∧
    (⟨instant ⟨-4713, 12, 25⟩ ⟨1, 0, 0, 0⟩⟩ : Timestamp).addInterval .release ⟨-1, 0, 0⟩ =
      .ok ⟨instant ⟨-4713, 11, 25⟩ ⟨1, 0, 0, 0⟩⟩ ∧
    (⟨instant ⟨-4713, 11, 25⟩ ⟨1, 0, 0, 0⟩⟩ : Timestamp).truncate .release .unit .month = .err .invalid ∧
    (⟨instant ⟨-4713, 12, 1⟩ ⟨0, 0, 0, 0⟩⟩ : Timestamp).addInterval .release ⟨-1, 0, 0⟩ = .err .invalid := by
  unfold TruncUnit; decide

/-- The step matters: one month added to 2020-12-15 leads into another year. -/
example : ¬ SameValue ((⟨instant ⟨2021, 1, 15⟩ ⟨0, 0, 0, 0⟩⟩ : Timestamp).truncate .debug .unit .year)
    ((⟨instant ⟨2020, 1, 1⟩ ⟨0, 0, 0, 0⟩⟩ : Timestamp).addInterval .debug ⟨1, 0, 0⟩) ∧
    (⟨instant ⟨2020, 12, 15⟩ ⟨0, 0, 0, 0⟩⟩ : Timestamp).addInterval .debug ⟨1, 0, 0⟩ =
      .ok ⟨instant ⟨2021, 1, 15⟩ ⟨0, 0, 0, 0⟩⟩ := by
  refine ⟨?_, by decide⟩
  rintro (⟨x, a, b⟩ | ⟨⟨e, he⟩, -⟩)
  · have a' : (⟨instant ⟨2021, 1, 15⟩ ⟨0, 0, 0, 0⟩⟩ : Timestamp).truncate .debug .unit .year =
      .ok ⟨instant ⟨2021, 1, 1⟩ ⟨0, 0, 0, 0⟩⟩ := by decide
    have b' : (⟨instant ⟨2020, 1, 1⟩ ⟨0, 0, 0, 0⟩⟩ : Timestamp).addInterval .debug ⟨1, 0, 0⟩ =
      .ok ⟨instant ⟨2020, 2, 1⟩ ⟨0, 0, 0, 0⟩⟩ := by decide
    rw [a', Res.ok.injEq] at a
    rw [b', Res.ok.injEq] at b
    rw [← a] at b
    exact absurd b (by decide)
  · have a' : (⟨instant ⟨2021, 1, 15⟩ ⟨0, 0, 0, 0⟩⟩ : Timestamp).truncate .debug .unit .year =
      .ok ⟨instant ⟨2021, 1, 1⟩ ⟨0, 0, 0, 0⟩⟩ := by decide
    rw [a'] at he
    cases he

theorem clock_trunc {u : DateUnit} (hu : ClockUnit u) : TruncUnit u := by
  unfold ClockUnit at hu
  unfold TruncUnit
  simp only [List.mem_cons, List.not_mem_nil, or_false] at *
  rcases hu with h | h | h | h | h | h <;> simp [h]

theorem clock_floor {u : DateUnit} (hu : ClockUnit u) {x : Int} (h : TsRange x) :
    UnitFloor u x (x / unitMicros u * unitMicros u) := by
  obtain ⟨c, hc, hd, -⟩ := fields_spec .debug h
  have hi := instant_fields hd
  have hf := truncOf_floor (clock_trunc hu) hc (clockOf_real x)
  have hq := clockOf_real x
  have hm := micros_bounds hq
  rw [hi] at hf
  have e : instant (truncDayOf u c) (truncClockOf u (clockOf x)) = x / unitMicros u * unitMicros u := by
    generalize clockOf x = q at *
    obtain ⟨a1, a2, a3, a4⟩ := q
    unfold ClockUnit at hu
    simp only [List.mem_cons, List.not_mem_nil, or_false] at hu
    unfold instant dayMicros at *
    simp only [Clock.Real, Clock.micros] at *
    rcases hu with rfl | rfl | rfl | rfl | rfl | rfl <;>
      simp only [truncDayOf, truncClockOf, unitMicros] <;> omega
  rwa [e] at hf

theorem clock_range {u : DateUnit} (hu : ClockUnit u) {x : Int} (h : TsRange x) : TsRange (x / unitMicros u * unitMicros u) := by
  rw [tsRange_iff] at *
  unfold ClockUnit at hu
  simp only [List.mem_cons, List.not_mem_nil, or_false] at hu
  rcases hu with rfl | rfl | rfl | rfl | rfl | rfl <;> simp only [unitMicros] <;> omega

/-- **C88.** Adding days and truncating to a unit up to the day is truncating first and adding then. -/
theorem C88_days (p : Profile) {u : DateUnit} (hu : ClockUnit u) (t : Timestamp) (n : Int) (h32 : In32 n) (ht : TsRange t.v)
    (hr : TsRange (t.v + n * dayMicros)) :
    ∃ r g x, t.addInterval p ⟨0, n, 0⟩ = .ok r ∧ t.truncate p .unit u = .ok g ∧
      r.truncate p .unit u = .ok x ∧ g.addInterval p ⟨0, n, 0⟩ = .ok x := by
  have add : ∀ t : Timestamp, TsRange t.v → TsRange (t.v + n * dayMicros) →
      t.addInterval p ⟨0, n, 0⟩ = .ok ⟨t.v + n * dayMicros⟩ := by
    intro t h h'
    have b := (tsRange_iff _).1 h'
    refine (C11_partial p t n h h32 ?_ ?_).1 h' <;>
    · rintro -
      unfold targetDay
      rw [show dayNumber firstDay = -2451545 from by decide]
      unfold dayMicros at *
      omega
  have e : (t.v + n * dayMicros) / unitMicros u * unitMicros u = t.v / unitMicros u * unitMicros u + n * dayMicros := by
    unfold ClockUnit at hu
    simp only [List.mem_cons, List.not_mem_nil, or_false] at hu
    rcases hu with rfl | rfl | rfl | rfl | rfl | rfl <;> simp only [unitMicros] <;> (unfold dayMicros; omega)
  have g2 := clock_range hu hr
  have q := (truncate_floor p (clock_trunc hu) hr (clock_floor hu hr)).1 g2
  rw [e] at g2 q
  exact ⟨_, _, _, add t ht hr, (truncate_floor p (clock_trunc hu) ht (clock_floor hu ht)).1 (clock_range hu ht), q,
    add ⟨_⟩ (clock_range hu ht) g2⟩

example : ClockUnit .hour ∧ TsRange (instant ⟨2024, 2, 28⟩ ⟨13, 45, 7, 5⟩) ∧ In32 2 ∧
    TsRange (instant ⟨2024, 2, 28⟩ ⟨13, 45, 7, 5⟩ + 2 * dayMicros) ∧
    (⟨instant ⟨2024, 2, 28⟩ ⟨13, 0, 0, 0⟩⟩ : Timestamp).addInterval .debug ⟨0, 2, 0⟩ =
      .ok ⟨instant ⟨2024, 3, 1⟩ ⟨13, 0, 0, 0⟩⟩ := by
  unfold ClockUnit; decide

/-- **C88.** Adding `k` times the length of a unit up to the day and truncating to it is truncating first and adding then. -/
theorem C88_clock (p : Profile) {u : DateUnit} (hu : ClockUnit u) (t : Timestamp) (k : Int) (ht : TsRange t.v)
    (hr : TsRange (t.v + k * unitMicros u)) :
    ∃ r g x, t.addInterval p ⟨0, 0, k * unitMicros u⟩ = .ok r ∧ t.truncate p .unit u = .ok g ∧
      r.truncate p .unit u = .ok x ∧ g.addInterval p ⟨0, 0, k * unitMicros u⟩ = .ok x := by
  have add : ∀ t : Timestamp, TsRange t.v → TsRange (t.v + k * unitMicros u) →
      t.addInterval p ⟨0, 0, k * unitMicros u⟩ = .ok ⟨t.v + k * unitMicros u⟩ := by
    intro t h h'
    have b := (tsRange_iff _).1 h'
    exact (C12_time_step_partial p t _ h (by unfold In64; omega)).1 h'
  have e : (t.v + k * unitMicros u) / unitMicros u * unitMicros u = t.v / unitMicros u * unitMicros u + k * unitMicros u := by
    unfold ClockUnit at hu
    simp only [List.mem_cons, List.not_mem_nil, or_false] at hu
    rcases hu with rfl | rfl | rfl | rfl | rfl | rfl <;> simp only [unitMicros] <;> omega
  have g2 := clock_range hu hr
  have q := (truncate_floor p (clock_trunc hu) hr (clock_floor hu hr)).1 g2
  rw [e] at g2 q
  exact ⟨_, _, _, add t ht hr, (truncate_floor p (clock_trunc hu) ht (clock_floor hu ht)).1 (clock_range hu ht), q,
    add ⟨_⟩ (clock_range hu ht) g2⟩

example : ClockUnit .minute ∧ TsRange (instant ⟨2024, 2, 28⟩ ⟨23, 58, 7, 5⟩) ∧
    TsRange (instant ⟨2024, 2, 28⟩ ⟨23, 58, 7, 5⟩ + 3 * unitMicros .minute) ∧
    instant ⟨2024, 2, 28⟩ ⟨23, 58, 7, 5⟩ + 3 * unitMicros .minute = instant ⟨2024, 2, 29⟩ ⟨0, 1, 7, 5⟩ := by
  unfold ClockUnit; decide

theorem week_floor {x g : Int} (h : TsRange x) (hg : UnitFloor .week x g) :
    g = (x / dayMicros - weekday (x / dayMicros)) * dayMicros := by
  have h' := (tsRange_iff _).1 h
  have hm : TsRange ((x / dayMicros - weekday (x / dayMicros)) * dayMicros) := by
    rw [tsRange_iff]; unfold weekday dayMicros; omega
  obtain ⟨c, hc, hd, -⟩ := fields_spec .debug hm
  have hz : (⟨0, 0, 0, 0⟩ : Clock).micros = 0 := by decide
  refine unitFloor_unique hg ⟨⟨c, ⟨0, 0, 0, 0⟩, hc, by decide, ?_, ⟨rfl, rfl, rfl, rfl⟩, ?_⟩, ?_, ?_⟩
  · unfold instant; rw [hz]; unfold weekday dayMicros at *; omega
  · unfold weekday dayMicros at *; omega
  · unfold weekday dayMicros at *; omega
  · rintro s ⟨c2, t2, -, -, rfl, ⟨q1, q2, q3, q4⟩, hs⟩ hle
    have hz2 : t2.micros = 0 := by
      unfold Clock.micros; rw [q1, q2, q3, q4]; rfl
    unfold instant at hle ⊢
    rw [hz2] at hle ⊢
    unfold weekday dayMicros at *; omega

/-- **C88**, weeks. Adding whole weeks as days and truncating to weeks is truncating first and adding then. Missing: days at the
end of December that belong to the first week of the next year, for which truncation to weeks is wrong (see
`C24_week_violated`). -/
theorem C88_weeks_partial (p : Profile) (t : Timestamp) (k : Int) (h32 : In32 (7 * k)) (ht : TsRange t.v)
    (hr : TsRange (t.v + 7 * k * dayMicros)) (c c' : YMD) (hc : c.Real) (hd : dayNumber c = t.v / dayMicros)
    (hw : ∀ w d, ¬ IsoWeekDate (dayNumber c) (c.y + 1) w d) (hc' : c'.Real) (hd' : dayNumber c' = dayNumber c + 7 * k)
    (hw' : ∀ w d, ¬ IsoWeekDate (dayNumber c') (c'.y + 1) w d) :
    ∃ r g x, t.addInterval p ⟨0, 7 * k, 0⟩ = .ok r ∧ t.truncate p .unit .week = .ok g ∧
      r.truncate p .unit .week = .ok x ∧ g.addInterval p ⟨0, 7 * k, 0⟩ = .ok x := by
  obtain ⟨g, f1, r1, e1⟩ := C24_week_partial p t ht c hc hd hw
  obtain ⟨x, f2, r2, e2⟩ := C24_week_partial p ⟨t.v + 7 * k * dayMicros⟩ hr c' hc' (by
    rw [hd', hd]; unfold dayMicros; dsimp only; omega) hw'
  have g1 := week_floor ht f1
  have g2 := week_floor hr f2
  have add : ∀ t : Timestamp, TsRange t.v → TsRange (t.v + 7 * k * dayMicros) →
      t.addInterval p ⟨0, 7 * k, 0⟩ = .ok ⟨t.v + 7 * k * dayMicros⟩ := by
    intro t h h'
    have b := (tsRange_iff _).1 h'
    refine (C11_partial p t _ h h32 ?_ ?_).1 h' <;>
    · rintro -
      unfold targetDay
      rw [show dayNumber firstDay = -2451545 from by decide]
      unfold dayMicros at *
      omega
  have e : x = g + 7 * k * dayMicros := by
    rw [g1, g2]; unfold weekday dayMicros; omega
  subst e
  exact ⟨_, _, _, add t ht hr, e1, e2, add ⟨g⟩ r1 r2⟩

example : In32 (7 * 3) ∧ TsRange (instant ⟨2024, 2, 28⟩ ⟨13, 45, 0, 0⟩) ∧
    TsRange (instant ⟨2024, 2, 28⟩ ⟨13, 45, 0, 0⟩ + 7 * 3 * dayMicros) ∧
    (∀ w d, ¬ IsoWeekDate (dayNumber ⟨2024, 2, 28⟩) (2024 + 1) w d) ∧
    dayNumber ⟨2024, 3, 20⟩ = dayNumber ⟨2024, 2, 28⟩ + 7 * 3 ∧
    (∀ w d, ¬ IsoWeekDate (dayNumber ⟨2024, 3, 20⟩) (2024 + 1) w d) ∧
    (⟨instant ⟨2024, 3, 20⟩ ⟨13, 45, 0, 0⟩⟩ : Timestamp).truncate .debug .unit .week =
      .ok ⟨instant ⟨2024, 3, 18⟩ ⟨0, 0, 0, 0⟩⟩ := by
  refine ⟨by decide, by decide, by decide, fun w d h => absurd h.1 (by unfold InYear; decide), by decide,
    fun w d h => absurd h.1 (by unfold InYear; decide), by decide⟩

/-- **C88 is violated** for weeks: Monday 2018-12-24 and one week. -/
theorem C88_weeks_violated (p : Profile) :
    (⟨instant ⟨2018, 12, 24⟩ ⟨12, 0, 0, 0⟩⟩ : Timestamp).addInterval p ⟨0, 7, 0⟩ =
      .ok ⟨instant ⟨2018, 12, 31⟩ ⟨12, 0, 0, 0⟩⟩ ∧
    (⟨instant ⟨2018, 12, 31⟩ ⟨12, 0, 0, 0⟩⟩ : Timestamp).truncate p .unit .week =
      .ok ⟨instant ⟨2017, 1, 2⟩ ⟨0, 0, 0, 0⟩⟩ ∧
    (⟨instant ⟨2018, 12, 24⟩ ⟨12, 0, 0, 0⟩⟩ : Timestamp).truncate p .unit .week =
      .ok ⟨instant ⟨2018, 12, 24⟩ ⟨0, 0, 0, 0⟩⟩ ∧
    (⟨instant ⟨2018, 12, 24⟩ ⟨0, 0, 0, 0⟩⟩ : Timestamp).addInterval p ⟨0, 7, 0⟩ =
      .ok ⟨instant ⟨2018, 12, 31⟩ ⟨0, 0, 0, 0⟩⟩ := by
  cases p <;> decide

end Props
