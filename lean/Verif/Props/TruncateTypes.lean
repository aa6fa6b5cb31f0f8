import Verif.Props.Truncate
import Verif.Lemmas.IntervalFields

/-!
# Truncating intervals, times and dates (C26)
-/

namespace Props
open Pg Spec

/-- The units interval truncation accepts that are a day or larger. -/
def CoarseUnit (u : DateUnit) : Prop :=
  u ∈ [DateUnit.day, .month, .quarter, .year, .decade, .century, .millennium]
/-- The units interval truncation accepts that are smaller than a day. -/
def FineUnit (u : DateUnit) : Prop :=
  u ∈ [DateUnit.microsec, .millisec, .second, .minute, .hour]

instance (u : DateUnit) : Decidable (CoarseUnit u) := inferInstanceAs (Decidable (_ ∈ _))
instance (u : DateUnit) : Decidable (FineUnit u) := inferInstanceAs (Decidable (_ ∈ _))

theorem truncZero_tdiv_pos (k v : Int) (hk : 0 < k) : TruncZero k v (Int.tdiv v k * k) := by
  unfold TruncZero
  refine ⟨by simp, ?_, ?_⟩
  · intro h
    rw [tdiv_nn h]
    have a := Int.mul_ediv_add_emod v k
    have b := Int.emod_nonneg v (by omega : k ≠ 0)
    have c := Int.emod_lt_of_pos v hk
    have d := Int.mul_nonneg (Int.ediv_nonneg h (Int.le_of_lt hk)) (Int.le_of_lt hk)
    rw [Int.mul_comm] at a
    omega
  · intro h
    rw [tdiv_np h, Int.neg_mul]
    have a := Int.mul_ediv_add_emod (-v) k
    have b := Int.emod_nonneg (-v) (by omega : k ≠ 0)
    have c := Int.emod_lt_of_pos (-v) hk
    have d := Int.mul_nonneg (Int.ediv_nonneg (by omega : 0 ≤ -v) (Int.le_of_lt hk)) (Int.le_of_lt hk)
    rw [Int.mul_comm] at a
    omega

theorem months_chain (m : Int) :
    Int.tdiv m 12 * 12 + Int.tmod m 12 = m ∧
    Int.tdiv m 12 * 12 + 3 * Int.tdiv (Int.tmod m 12) 3 = Int.tdiv m 3 * 3 ∧ True ∧
    Int.tdiv (Int.tdiv m 12) 10 * 10 * 12 = Int.tdiv m 120 * 120 ∧
    Int.tdiv (Int.tdiv (Int.tdiv m 12) 100 * 100) 10 * 10 * 12 = Int.tdiv m 1200 * 1200 ∧
    Int.tdiv (Int.tdiv (Int.tdiv (Int.tdiv m 12) 1000 * 1000) 100 * 100) 10 * 10 * 12 =
      Int.tdiv m 12000 * 12000 := by
  have a := tdiv_or m 12
  have b := tmod_or m 12
  refine ⟨by omega, ?_, trivial, ?_, ?_, ?_⟩
  · have c := tdiv_or m 3
    have d := tdiv_or (Int.tmod m 12) 3
    omega
  · have c := tdiv_or m 120
    have d := tdiv_or (Int.tdiv m 12) 10
    omega
  · have c := tdiv_or m 1200
    have d := tdiv_or (Int.tdiv m 12) 100
    have e := tdiv_or (Int.tdiv (Int.tdiv m 12) 100 * 100) 10
    omega
  · have c := tdiv_or m 12000
    have d := tdiv_or (Int.tdiv m 12) 1000
    have e := tdiv_or (Int.tdiv (Int.tdiv m 12) 1000 * 1000) 100
    have e' : Int.tdiv (Int.tdiv (Int.tdiv m 12) 1000 * 1000) 100 * 100 =
        Int.tdiv (Int.tdiv m 12) 1000 * 1000 := by omega
    rw [e']
    have f := tdiv_or (Int.tdiv (Int.tdiv m 12) 1000 * 1000) 10
    omega

theorem time_chain (t : Int) :
    Int.tdiv t 3600000000 * 60 + Int.tdiv (Int.tmod t 3600000000) 60000000 = Int.tdiv t 60000000 ∧
    Int.tdiv t 60000000 * 60 + Int.tdiv (Int.tmod t 60000000) 1000000 = Int.tdiv t 1000000 ∧
    Int.tdiv t 1000000 * 1000000 + Int.tmod t 1000000 = t ∧
    Int.tdiv t 1000000 * 1000000 + Int.tdiv (Int.tmod t 1000000) 1000 * 1000 = Int.tdiv t 1000 * 1000 ∧
    (-60 ≤ Int.tdiv (Int.tmod t 60000000) 1000000 ∧ Int.tdiv (Int.tmod t 60000000) 1000000 ≤ 60) ∧
    (-1000000 ≤ Int.tmod t 1000000 ∧ Int.tmod t 1000000 ≤ 1000000) ∧
    (-1000000 ≤ Int.tdiv (Int.tmod t 1000000) 1000 * 1000 ∧
      Int.tdiv (Int.tmod t 1000000) 1000 * 1000 ≤ 1000000) := by
  refine ⟨?_, ?_, ?_, ?_, ?_, ?_, ?_⟩
  · have := tdiv_or t 3600000000
    have := tmod_or t 3600000000
    have := tdiv_or (Int.tmod t 3600000000) 60000000
    have := tdiv_or t 60000000
    omega
  · have := tdiv_or t 60000000
    have := tmod_or t 60000000
    have := tdiv_or (Int.tmod t 60000000) 1000000
    have := tdiv_or t 1000000
    omega
  · have := tdiv_or t 1000000
    have := tmod_or t 1000000
    omega
  · have := tdiv_or t 1000000
    have := tmod_or t 1000000
    have := tdiv_or (Int.tmod t 1000000) 1000
    have := tdiv_or t 1000
    omega
  · have := tmod_or t 60000000
    have := tdiv_or (Int.tmod t 60000000) 1000000
    omega
  · have := tmod_or t 1000000
    omega
  · have := tmod_or t 1000000
    have := tdiv_or (Int.tmod t 1000000) 1000
    omega

/-- **C26**, intervals. Truncation clears the smaller fields, truncates the field of the unit
toward zero and keeps the larger ones, and is an Overflow error when the hours of the interval
do not fit 32 bits. The full claim has no further condition. Missing: for units below a day,
intervals of 2^31 minutes or more (but fewer than 2^31 hours), where the claim is false (see
`C26_interval_violated`). -/
theorem C26_interval_partial (p : Profile) (a : Interval) (h : a.WF) (u : DateUnit)
    (hu : CoarseUnit u ∨ (FineUnit u ∧
      (In32 (Int.tdiv a.time 3600000000) → In32 (Int.tdiv a.time 60000000)))) :
    (In32 (Int.tdiv a.time 3600000000) →
      ∃ r, a.truncate p .unit u = .ok r ∧ r.WF ∧
        IntervalTrunc u a.month a.day a.time r.month r.day r.time) ∧
    (¬ In32 (Int.tdiv a.time 3600000000) → a.truncate p .unit u = .err .overflow) := by
  obtain ⟨hm, hd, ht⟩ := h
  have e := toPgtime_eq p ht
  constructor
  · intro hh
    rw [if_pos hh] at e
    unfold Interval.truncate
    simp only [e, Res.bind_ok]
    have mz : ∀ k, 0 < k → In32 (Int.tdiv a.month k * k) := fun k hk => by
      have := truncZero_tdiv_pos k a.month hk
      unfold TruncZero at this; unfold In32 at *; omega
    have tz := truncZero_tdiv_pos
    have q2 := tdiv_or a.time 3600000000
    unfold CoarseUnit FineUnit at hu
    simp only [List.mem_cons, List.not_mem_nil, or_false] at hu
    rcases hu with h | ⟨h, hmin⟩
    · obtain ⟨y1, y2, y3, y4, y5, y6⟩ := months_chain a.month
      rcases h with h | h | h | h | h | h | h <;> subst h <;>
        simp only [Interval.truncUnit, truncDay, truncHour, truncMinute, truncSec, truncMilliSec,
          truncMicroSec, truncIntervalMonth, truncIntervalQuarter, truncIntervalYear,
          truncIntervalDecade, truncIntervalCentury, truncIntervalMillennium, ivTm, Res.bind_ok,
          IntervalTrunc, show Int.tdiv 0 1000 = 0 from rfl,
          show Int.tdiv 0 3 = 0 from rfl]
      all_goals
        rw [fromPgtime_eq p _ _ (by
            simp only [Int.mul_zero, Int.add_zero]
            first
              | rw [y1]; exact ⟨hm.1, hm.2⟩
              | rw [y2]; exact mz _ (by decide)
              | exact mz _ (by decide)
              | rw [y4]; exact mz _ (by decide)
              | rw [y5]; exact mz _ (by decide)
              | rw [y6]; exact mz _ (by decide)) (by simp only; decide) (by simp only; decide)
            (by simp only; decide) (by decide)]
        simp only [Int.mul_zero, Int.add_zero]
        first
          | rw [y1]
          | rw [y2]
          | skip
        first
          | rw [y4]
          | rw [y5]
          | rw [y6]
          | skip
        refine ⟨_, rfl, ⟨?_, ?_, ?_⟩, ?_, ?_, ?_⟩
        all_goals
          first
            | exact mz _ (by decide)
            | exact tz _ _ (by decide)
            | exact hm
            | exact hd
            | rfl
            | (simp only; decide)
    · have hmin := hmin hh
      have y1 := (months_chain a.month).1
      obtain ⟨w1, w2, w3, w4, w5, w6, w7⟩ := time_chain a.time
      have tin : ∀ k, 0 < k → In64 (Int.tdiv a.time k * k) := fun k hk => by
        have := truncZero_tdiv_pos k a.time hk
        unfold TruncZero at this; unfold In64 at *; omega
      have hb : In32 (Int.tdiv a.time 3600000000 * 60) := by
        unfold In32 at *; unfold In64 at ht; omega
      rcases h with h | h | h | h | h <;> subst h <;>
        simp only [Interval.truncUnit, truncHour, truncMinute, truncSec, truncMilliSec,
          truncMicroSec, ivTm, Res.bind_ok, IntervalTrunc,
          show Int.tdiv 0 1000 = 0 from rfl]
      all_goals
        rw [fromPgtime_eq p _ _ (by simp only; rw [y1]; exact hm) hb
          (by simp only [Int.add_zero, w1]; first | exact hmin | exact hb)
          (by simp only; first | exact w5 | decide) (by first | exact w6 | exact w7 | decide)]
        simp only [y1, w1, w2, Int.zero_mul, Int.add_zero, w3, w4]
        refine ⟨_, rfl, ⟨hm, hd, ?_⟩, rfl, rfl, ?_⟩
        all_goals
          first
            | rfl
            | exact ht
            | exact tin _ (by decide)
            | exact tz _ _ (by decide)
            | (rw [show Int.tdiv a.time 3600000000 * 60 * 60 * 1000000 =
                Int.tdiv a.time 3600000000 * 3600000000 by omega]
               first
                | exact tin _ (by decide)
                | exact tz _ _ (by decide))
            | (rw [show Int.tdiv a.time 60000000 * 60 * 1000000 =
                Int.tdiv a.time 60000000 * 60000000 by omega]
               first
                | exact tin _ (by decide)
                | exact tz _ _ (by decide))
  · intro hh
    rw [if_neg hh] at e
    unfold Interval.truncate
    simp only [e, Res.bind_err]

example : (⟨-29, 5, -5430999999⟩ : Interval).WF ∧ CoarseUnit .quarter ∧ FineUnit .minute ∧
    In32 (Int.tdiv (-5430999999) 60000000) ∧
    (⟨-29, 5, -5430999999⟩ : Interval).truncate .debug .unit .quarter = .ok ⟨-27, 0, 0⟩ ∧
    (⟨-29, 5, -5430999999⟩ : Interval).truncate .debug .unit .minute = .ok ⟨-29, 5, -5400000000⟩ := by
  decide

/-- **C26 is violated** for an interval of 35791395 hours (just over 2^31 minutes): truncating to
hours panics in debug builds and gives a negative interval in release builds. -/
theorem C26_interval_violated :
    (⟨0, 0, 35791395 * 3600000000⟩ : Interval).WF ∧
    (⟨0, 0, 35791395 * 3600000000⟩ : Interval).truncate .debug .unit .hour = .panic ∧
    (⟨0, 0, 35791395 * 3600000000⟩ : Interval).truncate .release .unit .hour =
      .ok ⟨0, 0, -128849015760000000⟩ := by decide

/-- Truncation toward zero is unique and idempotent. -/
theorem truncZero_self {k v r : Int} (hk : 0 < k) (h : TruncZero k v r) : TruncZero k r r ∧
    (v = 0 → r = 0) ∧ (0 < r → 0 < v) ∧ (r < 0 → v < 0) := by
  unfold TruncZero at *
  omega

theorem truncZero_unique {k v r s : Int} (hk : 0 < k) (h : TruncZero k v r) (h' : TruncZero k v s) :
    r = s := by
  obtain ⟨h1, h2, h3⟩ := h
  obtain ⟨g1, g2, g3⟩ := h'
  have a := Int.mul_ediv_add_emod r k
  have b := Int.mul_ediv_add_emod s k
  rw [h1] at a
  rw [g1] at b
  have hlt : -k < r - s ∧ r - s < k := by
    by_cases hv : 0 ≤ v
    · have := h2 hv; have := g2 hv; omega
    · have := h3 (by omega); have := g3 (by omega); omega
  have e : r - s = k * (r / k - s / k) := by rw [Int.mul_sub]; omega
  have : r / k - s / k = 0 := by
    rw [e] at hlt
    by_cases hq : r / k - s / k ≤ -1
    · have := Int.mul_le_mul_of_nonneg_left hq (Int.le_of_lt hk); omega
    · by_cases hq' : 1 ≤ r / k - s / k
      · have := Int.mul_le_mul_of_nonneg_left hq' (Int.le_of_lt hk); omega
      · omega
  rw [this] at e
  omega

/-- The specification of interval truncation determines the result, is idempotent and never
changes a sign. -/
theorem intervalTrunc_laws {u : DateUnit} {m d t m' d' t' : Int}
    (h : IntervalTrunc u m d t m' d' t') :
    IntervalTrunc u m' d' t' m' d' t' ∧
    (∀ m2 d2 t2, IntervalTrunc u m d t m2 d2 t2 → m2 = m' ∧ d2 = d' ∧ t2 = t') ∧
    (0 ≤ m → 0 ≤ m') ∧ (m ≤ 0 → m' ≤ 0) ∧ (0 ≤ d → 0 ≤ d') ∧ (d ≤ 0 → d' ≤ 0) ∧
    (0 ≤ t → 0 ≤ t') ∧ (t ≤ 0 → t' ≤ 0) := by
  cases u <;> simp only [IntervalTrunc] at * <;> obtain ⟨h1, h2, h3⟩ := h
  case second | minute | hour | millisec =>
    obtain ⟨f1, f2, f3, f4⟩ := truncZero_self (by decide) h3
    refine ⟨⟨trivial, trivial, f1⟩, ?_, by omega, by omega, by omega, by omega, by omega, by omega⟩
    rintro m2 d2 t2 ⟨g1, g2, g3⟩
    exact ⟨by omega, by omega, truncZero_unique (by decide) g3 h3⟩
  case millennium | century | decade | year | quarter =>
    obtain ⟨f1, f2, f3, f4⟩ := truncZero_self (by decide) h1
    refine ⟨⟨f1, h2, h3⟩, ?_, by omega, by omega, by omega, by omega, by omega, by omega⟩
    rintro m2 d2 t2 ⟨g1, g2, g3⟩
    exact ⟨truncZero_unique (by decide) g1 h1, by omega, by omega⟩
  all_goals
    refine ⟨by simp [*], by omega, by omega, by omega, by omega, by omega, by omega, by omega⟩

/-- **C26.** Interval truncation is idempotent and keeps the sign of every field (same hypotheses
and missing part as `C26_interval_partial`). -/
theorem C26_interval_idempotent_partial (p : Profile) (a r : Interval) (h : a.WF) (u : DateUnit)
    (hu : CoarseUnit u ∨ (FineUnit u ∧
      (In32 (Int.tdiv a.time 3600000000) → In32 (Int.tdiv a.time 60000000))))
    (hr : a.truncate p .unit u = .ok r) :
    r.truncate p .unit u = .ok r ∧ (0 ≤ a.month → 0 ≤ r.month) ∧ (a.month ≤ 0 → r.month ≤ 0) ∧
    (0 ≤ a.day → 0 ≤ r.day) ∧ (a.day ≤ 0 → r.day ≤ 0) ∧ (0 ≤ a.time → 0 ≤ r.time) ∧
    (a.time ≤ 0 → r.time ≤ 0) := by
  obtain ⟨h1, h2⟩ := C26_interval_partial p a h u hu
  have hh : In32 (Int.tdiv a.time 3600000000) := by
    apply Classical.byContradiction
    intro hc
    rw [h2 hc] at hr; cases hr
  obtain ⟨r', e, hw, hs⟩ := h1 hh
  rw [e] at hr
  cases hr
  obtain ⟨l1, l2, l3⟩ := intervalTrunc_laws hs
  refine ⟨?_, l3⟩
  have hle : (0 ≤ r.time ∧ r.time ≤ a.time) ∨ (a.time ≤ r.time ∧ r.time ≤ 0) := by
    clear l1 l2 h1 h2 e
    cases u <;> simp only [IntervalTrunc, TruncZero] at hs <;> omega
  have hin : ∀ k, 0 < k → In32 (Int.tdiv a.time k) → In32 (Int.tdiv r.time k) := by
    intro k hk hi
    unfold In32 at *
    have a1 := tdiv_or a.time k
    have a2 := tdiv_or r.time k
    rcases hle with ⟨b1, b2⟩ | ⟨b1, b2⟩
    · have := Int.ediv_le_ediv hk b2
      have := Int.ediv_nonneg b1 (Int.le_of_lt hk)
      omega
    · have := Int.ediv_le_ediv hk (show -r.time ≤ -a.time by omega)
      have := Int.ediv_nonneg (show 0 ≤ -r.time by omega) (Int.le_of_lt hk)
      have e0 : a.time < 0 ∨ a.time = 0 := by omega
      have e1 : r.time < 0 ∨ r.time = 0 := by omega
      rcases e1 with e1 | e1
      · omega
      · rw [e1]; simp
  have hu' : CoarseUnit u ∨ (FineUnit u ∧
      (In32 (Int.tdiv r.time 3600000000) → In32 (Int.tdiv r.time 60000000))) := by
    rcases hu with a | ⟨b, c⟩
    · exact .inl a
    · exact .inr ⟨b, fun _ => hin _ (by decide) (c hh)⟩
  obtain ⟨r2, e2, -, hs2⟩ := (C26_interval_partial p r hw u hu').1 (hin _ (by decide) hh)
  obtain ⟨k1, k2, k3⟩ := (intervalTrunc_laws l1).2.1 _ _ _ hs2
  rw [e2]
  obtain ⟨x, y, z⟩ := r2
  simp only at k1 k2 k3
  rw [k1, k2, k3]

/-- Microseconds in a clock unit. -/
def unitMicros : DateUnit → Int
  | .hour => 3600000000 | .minute => 60000000 | .second => 1000000 | .millisec => 1000 | _ => 1

/-- **C26**, times. The full claim covers 24:00 too. A time of day below 24:00 is truncated to the
greatest multiple of the unit not above it. Missing: 24:00 itself, see `C26_time_violated`. -/
theorem C26_time_partial (p : Profile) (t : Time) (h0 : 0 ≤ t.v) (h1 : t.v < dayMicros) (u : DateUnit)
    (hu : FineUnit u) :
    ∃ r, t.truncate p .unit u = .ok ⟨r⟩ ∧ r % unitMicros u = 0 ∧ r ≤ t.v ∧ t.v < r + unitMicros u := by
  unfold dayMicros at h1
  have q1 := tdiv_or t.v 3600000000
  have q2 := tdiv_or t.v 60000000
  have hw : (Interval.ofTime t).WF := by
    unfold Interval.WF Interval.ofTime In32 In64; simp only; omega
  have hin : In32 (Int.tdiv t.v 3600000000) := by unfold In32; omega
  obtain ⟨r, e, -, hs⟩ := (C26_interval_partial p (Interval.ofTime t) hw u
    (.inr ⟨hu, fun _ => by unfold In32 Interval.ofTime; simp only; omega⟩)).1 hin
  have hb : 0 ≤ r.time ∧ r.time ≤ t.v := by
    unfold Interval.ofTime at hs
    cases u <;> simp only [IntervalTrunc, TruncZero] at hs <;> omega
  refine ⟨r.time, ?_, ?_⟩
  · unfold Time.truncate
    rw [e, Res.bind_ok, C21_partial p r (by unfold In64; omega) (by unfold dayMicros; omega)]
    unfold dayMicros
    rw [show r.time % 86400000000 = r.time by omega]
  · unfold Interval.ofTime at hs
    cases u <;> simp only [IntervalTrunc, TruncZero, unitMicros] at * <;>
      first | omega | (exact absurd hu (by decide))

example : (⟨45296789012⟩ : Time).truncate .debug .unit .minute = .ok ⟨45240000000⟩ ∧
    FineUnit .minute := by decide

/-- **C26 is violated** for the time 24:00, which truncates to 00:00. -/
theorem C26_time_violated (p : Profile) :
    (⟨86400000000⟩ : Time).truncate p .unit .hour = .ok ⟨0⟩ := by cases p <;> decide

/-- **C26**, dates (all units but weeks). Truncating a valid date is the day of the unit start at
or before its midnight, hence never a later date; it is an error if the unit start or the midnight
itself is outside the timestamp range. -/
theorem C26_date (p : Profile) {u : DateUnit} (hu : TruncUnit u) (d : Date) (h : DateRange d.v) :
    (TsRange (d.v * dayMicros) →
      ∃ g, UnitFloor u (d.v * dayMicros) g ∧
        (TsRange g → d.truncate p .unit u = .ok ⟨g / dayMicros⟩ ∧ g / dayMicros ≤ d.v) ∧
        (¬ TsRange g → (d.truncate p .unit u).IsErr)) ∧
    (¬ TsRange (d.v * dayMicros) → (d.truncate p .unit u).IsErr) := by
  have h' := (dateRange_iff _).1 h
  obtain ⟨c1, c2⟩ := C06_date_to_timestamp p d h
  rw [show dayNumber ⟨294277, 1, 1⟩ = 106751983 from by decide] at c1 c2
  constructor
  · intro hr
    have hr' := (tsRange_iff _).1 hr
    unfold dayMicros at hr'
    obtain ⟨e, -, -⟩ := c1 (by omega)
    obtain ⟨g, hg, g1, g2⟩ := C24_start_of_unit p hu ⟨d.v * dayMicros⟩ hr
    refine ⟨g, hg, ?_, ?_⟩
    · intro hgr
      unfold Date.truncate
      rw [e, Res.bind_ok, g1 hgr, Res.bind_ok, ofTimestamp_eq p ⟨g⟩ hgr]
      refine ⟨rfl, ?_⟩
      have := hg.2.1
      unfold dayMicros at *
      simp only at this
      omega
    · intro hgr
      obtain ⟨er, he⟩ := g2 hgr
      unfold Date.truncate
      rw [e, Res.bind_ok, he]
      exact ⟨er, rfl⟩
  · intro hr
    rw [tsRange_iff] at hr
    unfold dayMicros at hr
    obtain ⟨er, he⟩ := c2 (by omega)
    unfold Date.truncate
    rw [he]
    exact ⟨er, rfl⟩

example : (⟨60⟩ : Date).truncate .debug .unit .quarter = .ok ⟨0⟩ ∧ DateRange 60 ∧
    TsRange (60 * dayMicros) := by decide

/-- **C26 is violated** for the infinite date: truncated to a decade it becomes the finite date
294270-01-01. (`-infinity` and finer units give an error, coarser units are finite as well.) -/
theorem C26_infinity_violated (p : Profile) :
    Date.END.truncate p .unit .decade = .ok ⟨dayNumber ⟨294270, 1, 1⟩⟩ := by cases p <;> decide

end Props
