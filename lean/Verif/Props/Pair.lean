import Verif.Props.MoreParts
import Verif.Props.TruncateTypes
import Verif.Props.TruncWeek
import Verif.Props.Format
import Verif.Props.TimestampArith
import Verif.Props.MixedArith
import Verif.Props.NoPanicCalc

/-!
# C97: a timestamp behaves like the pair of its date and its time of day
-/

namespace Spec
open Pg

/-- `t` is converted to the date `d` and the time of day `u`. -/
def IsPair (p : Profile) (t : Timestamp) (d : Date) (u : Time) : Prop :=
  Date.ofTimestamp p t = .ok d ∧ Time.ofTimestamp p t = .ok (some u)

/-- Units that a clock shows. -/
def clockUnits : List DateUnit := [.hour, .minute, .second, .millisec, .microsec]

/-- Fields that a calendar shows. -/
def calendarFields : List DateUnit :=
  [.day, .week, .month, .quarter, .year, .decade, .century, .millennium, .isoYear, .dow, .isoDow, .doy]

/-- Units of a day and longer that values can be truncated to. -/
def calendarUnits : List DateUnit := [.day, .week, .month, .quarter, .year, .decade, .century, .millennium]

end Spec

namespace Props
open Pg Spec

theorem isPair_iff {p : Profile} {t : Timestamp} {d : Date} {u : Time} (h : TsRange t.v) :
    IsPair p t d u ↔ d.v = t.v / 86400000000 ∧ u.v = t.v % 86400000000 := by
  unfold IsPair
  rw [ofTimestamp_eq p t h, timeOfTimestamp_eq p t h]
  obtain ⟨dv⟩ := d
  obtain ⟨uv⟩ := u
  unfold dayMicros
  constructor
  · rintro ⟨a, b⟩
    simp only [Res.ok.injEq, Option.some.injEq, Date.mk.injEq, Time.mk.injEq] at a b
    exact ⟨a.symm, b.symm⟩
  · rintro ⟨a, b⟩; dsimp only at a b; subst a b; exact ⟨rfl, rfl⟩

/-- Midnight of the day of a valid timestamp is valid. -/
theorem midnight_range {t : Int} (h : TsRange t) : TsRange (t / 86400000000 * 86400000000) := by
  rw [tsRange_iff] at *; omega

theorem ofDate_of_pair (p : Profile) {t : Timestamp} {d : Date} (h : TsRange t.v) (hd : d.v = t.v / 86400000000) :
    Timestamp.ofDate p d = .ok ⟨d.v * 86400000000⟩ := by
  have h' := (tsRange_iff _).1 h
  have hr := midnight_range h
  rw [← hd] at hr
  refine ((C06_date_to_timestamp p d ((dateRange_iff _).2 (by omega))).1 ?_).1
  rw [show dayNumber ⟨294277, 1, 1⟩ = 106751983 from by decide]
  omega

/-- **C97 (order).** Timestamps are ordered by date, and on the same date by time. -/
theorem C97_order (p : Profile) (s t : Timestamp) (ds dt : Date) (us ut : Time) (hs : TsRange s.v) (ht : TsRange t.v)
    (es : IsPair p s ds us) (et : IsPair p t dt ut) :
    (s.v < t.v ↔ ds.v < dt.v ∨ ds.v = dt.v ∧ us.v < ut.v) ∧ (s = t ↔ ds = dt ∧ us = ut) := by
  rw [isPair_iff hs] at es
  rw [isPair_iff ht] at et
  obtain ⟨s⟩ := s
  obtain ⟨t⟩ := t
  obtain ⟨ds⟩ := ds
  obtain ⟨dt⟩ := dt
  obtain ⟨us⟩ := us
  obtain ⟨ut⟩ := ut
  simp only [Timestamp.mk.injEq, Date.mk.injEq, Time.mk.injEq] at *
  omega

example : TsRange (-1) ∧ IsPair .debug ⟨-1⟩ ⟨-1⟩ ⟨86399999999⟩ := by unfold IsPair; decide

/-- **C97 (fields).** Clock fields are those of the time, calendar fields those of the date. -/
theorem C97_fields (p : Profile) (t : Timestamp) (d : Date) (u : Time) (h : TsRange t.v) (e : IsPair p t d u) :
    (∀ v ∈ clockUnits, t.datePart p .unit v = u.datePart p .unit v) ∧
    (∀ v ∈ calendarFields, t.datePart p .unit v = d.datePart p .unit v) := by
  rw [isPair_iff h] at e
  obtain ⟨d1, u1⟩ := e
  obtain ⟨c, hc, hd, -, -, ht⟩ := fields_spec p h
  have hi := notInf h
  have hm := midnight_range h
  obtain ⟨c', hc', hd', -, -, hm'⟩ := fields_spec p hm
  obtain rfl : c = c' := dayNumber_inj hc hc' (by omega)
  constructor
  · intro v hv
    have e1 : t.datePart p .unit v = Timestamp.fieldPart p (tmOf c (clockOf t.v)) (clockOf t.v).us v := by
      unfold Timestamp.datePart
      rw [hi]
      simp only [Bool.false_eq_true, if_false, ht, Res.bind_ok]
    have e2 : u.datePart p .unit v = Time.fieldPart
        { PgTime.new with
          hour := u.v / 3600000000, min := u.v % 3600000000 / 60000000, sec := u.v % 60000000 / 1000000 }
        (u.v % 1000000) v := by
      unfold Time.datePart
      simp only
      rw [time_toPgtime p u (by omega) (by unfold dayMicros; omega), Res.bind_ok]
    have f1 : u.v / 3600000000 = t.v % 86400000000 / 3600000000 := by omega
    have f2 : u.v % 3600000000 = t.v % 3600000000 := by omega
    have f3 : u.v % 60000000 = t.v % 60000000 := by omega
    have f4 : u.v % 1000000 = t.v % 1000000 := by omega
    rw [e1, e2, f1, f2, f3, f4]
    unfold clockUnits at hv
    simp only [List.mem_cons, List.not_mem_nil, or_false] at hv
    rcases hv with rfl | rfl | rfl | rfl | rfl <;> rfl
  · intro v hv
    unfold Date.datePart
    rw [ofDate_of_pair p h d1, Res.bind_ok]
    unfold Timestamp.datePart
    rw [hi, notInf (t := ⟨d.v * 86400000000⟩) (by rw [d1]; exact hm)]
    dsimp only
    rw [d1]
    simp only [Bool.false_eq_true, if_false, ht, hm', Res.bind_ok]
    unfold calendarFields at hv
    simp only [List.mem_cons, List.not_mem_nil, or_false] at hv
    rcases hv with rfl | rfl | rfl | rfl | rfl | rfl | rfl | rfl | rfl | rfl | rfl | rfl <;> rfl

/-- The Julian day has a fraction, so the date alone does not have it. -/
example : (⟨43200000000⟩ : Timestamp).datePart .debug .unit .julian ≠ (⟨0⟩ : Date).datePart .debug .unit .julian := by
  decide +kernel

/-- **C97 (truncating to a clock unit).** It keeps the date and truncates the time. -/
theorem C97_truncate_clock (p : Profile) (t : Timestamp) (d : Date) (u : Time) (h : TsRange t.v) (e : IsPair p t d u)
    (v : DateUnit) (hv : v ∈ clockUnits) :
    ∃ x u', t.truncate p .unit v = .ok x ∧ u.truncate p .unit v = .ok u' ∧ TsRange x.v ∧ IsPair p x d u' := by
  rw [isPair_iff h] at e
  obtain ⟨d1, u1⟩ := e
  have h' := (tsRange_iff _).1 h
  have hF : FineUnit v := by
    unfold clockUnits at hv
    simp only [List.mem_cons, List.not_mem_nil, or_false] at hv
    rcases hv with rfl | rfl | rfl | rfl | rfl <;> decide
  obtain ⟨r, er, r1, r2, r3⟩ := C26_time_partial p u (by omega) (by unfold dayMicros; omega) v hF
  obtain ⟨c, hr, hd, hy1, hy2, he⟩ := fields_spec p h
  have hk := clockOf_real t.v
  have hx : t.truncate p .unit v = .ok ⟨t.v / 86400000000 * 86400000000 + r⟩ ∧
      0 ≤ r ∧ r < 86400000000 := by
    have hT : TruncUnit v := by
      unfold clockUnits at hv
      simp only [List.mem_cons, List.not_mem_nil, or_false] at hv
      unfold TruncUnit
      rcases hv with rfl | rfl | rfl | rfl | rfl <;> decide
    have ht := toTimestamp_real p (tmOf (truncDayOf v c) (truncClockOf v (clockOf t.v)))
      (truncClockOf v (clockOf t.v)).us (truncDayOf_real hr) (truncClockOf_real hk)
    have hg : instant (truncDayOf v c) (truncClockOf v (clockOf t.v)) = t.v / 86400000000 * 86400000000 + r ∧
        0 ≤ r ∧ r < 86400000000 := by
      unfold clockUnits at hv
      simp only [List.mem_cons, List.not_mem_nil, or_false] at hv
      rcases hv with rfl | rfl | rfl | rfl | rfl <;>
        simp only [truncDayOf, truncClockOf, instant, Clock.micros, clockOf, unitMicros, dayMicros] at * <;> omega
    have hR : TsRange (instant (truncDayOf v c) (truncClockOf v (clockOf t.v))) := by
      rw [tsRange_iff, hg.1]; omega
    refine ⟨?_, hg.2⟩
    unfold Timestamp.truncate
    simp only [he, Res.bind_ok, truncUnit_eq p hT hr hk ⟨hy1, hy2⟩]
    rw [ht.1 hR, Res.bind_ok]
    exact congrArg (fun z => Res.ok (⟨z⟩ : Timestamp)) hg.1
  have hxr : TsRange (t.v / 86400000000 * 86400000000 + r) := by rw [tsRange_iff]; omega
  refine ⟨_, _, hx.1, er, hxr, (isPair_iff hxr).2 ⟨?_, ?_⟩⟩
  · dsimp only; omega
  · dsimp only; omega

theorem week_same (p : Profile) (c : YMD) (k k' : Clock) :
    Timestamp.truncUnit p (tmOf c k, k.us) .week = Timestamp.truncUnit p (tmOf c k', k'.us) .week := by
  unfold Timestamp.truncUnit truncTimestampWeek isoWeekToDate
  simp only [tmOf]
  cases dateToIsoWeek p c.y c.m c.d with
  | err e => rfl
  | panic => rfl
  | ok w =>
    simp only [Res.bind_ok]
    cases weekYear p w c.m c.y with
    | err e => rfl
    | panic => rfl
    | ok y =>
      simp only [Res.bind_ok]
      cases isoWeekToJulian p y w with
      | err e => rfl
      | panic => rfl
      | ok j =>
        simp only [Res.bind_ok]
        cases julian2date p j <;> rfl

theorem midnight_of_start {v : DateUnit} {x : Int} (hv : v ∈ calendarUnits) (h : IsUnitStart v x) : x % 86400000000 = 0 := by
  obtain ⟨c, k, -, -, rfl, hu⟩ := h
  have hm : k.Midnight := by
    unfold calendarUnits at hv
    simp only [List.mem_cons, List.not_mem_nil, or_false] at hv
    rcases hv with rfl | rfl | rfl | rfl | rfl | rfl | rfl | rfl
    · exact hu
    all_goals exact hu.1
  obtain ⟨a, b, c', d⟩ := hm
  unfold instant Clock.micros dayMicros
  omega

/-- **C97 (truncating to a day or more).** It truncates the date, whether that works or not, and the time
becomes midnight. -/
theorem C97_truncate_calendar (p : Profile) (t : Timestamp) (d : Date) (u : Time) (h : TsRange t.v)
    (e : IsPair p t d u) (v : DateUnit) (hv : v ∈ calendarUnits) :
    d.truncate p .unit v = (t.truncate p .unit v >>= fun x => Date.ofTimestamp p x) ∧
    ∀ x, t.truncate p .unit v = .ok x → ∃ d', IsPair p x d' ⟨0⟩ := by
  rw [isPair_iff h] at e
  obtain ⟨d1, u1⟩ := e
  obtain ⟨c, hc, hd, hy1, -, ht⟩ := fields_spec p h
  have hm := midnight_range h
  obtain ⟨c', hc', hd', -, -, hm'⟩ := fields_spec p hm
  obtain rfl : c = c' := dayNumber_inj hc hc' (by omega)
  unfold calendarUnits at hv
  simp only [List.mem_cons, List.not_mem_nil, or_false] at hv
  have same : t.truncate p .unit v = (⟨t.v / 86400000000 * 86400000000⟩ : Timestamp).truncate p .unit v := by
    unfold Timestamp.truncate
    simp only [ht, hm', Res.bind_ok]
    rcases hv with rfl | rfl | rfl | rfl | rfl | rfl | rfl | rfl <;> first | rfl | rw [week_same p c _ (clockOf _)]
  constructor
  · unfold Date.truncate
    rw [ofDate_of_pair p h d1, Res.bind_ok, d1, ← same]
  · intro x hx
    have hr := truncate_valid hx
    have key : x.v % 86400000000 = 0 := by
      by_cases hw : v = .week
      · subst hw
        by_cases hx' : ∃ w d, IsoWeekDate (dayNumber c) (c.y + 1) w d
        · obtain ⟨w, d, hx'⟩ := hx'
          obtain ⟨k1, k2⟩ := C24_week_exact p t h c hc hd w d hx'
          by_cases hy : -4713 < c.y
          · rw [k1 hy] at hx
            injection hx with hx
            rw [← hx]
            unfold dayMicros
            dsimp only
            omega
          · obtain ⟨k3, k4⟩ := k2 (by omega)
            cases p
            · rw [k3] at hx; cases hx
            · obtain ⟨_, k4⟩ := k4; rw [hx] at k4; cases k4
        · obtain ⟨g, hg, -, hg'⟩ := C24_week_partial p t h c hc hd (fun w d e => hx' ⟨w, d, e⟩)
          rw [hg'] at hx
          injection hx with hx
          rw [← hx]
          exact midnight_of_start (by unfold calendarUnits; decide) hg.1
      · have hT : TruncUnit v := by
          unfold TruncUnit
          rcases hv with rfl | rfl | rfl | rfl | rfl | rfl | rfl | rfl <;> first | decide | exact absurd rfl hw
        obtain ⟨g, hg, g1, g2⟩ := C24_start_of_unit p hT t h
        by_cases hgr : TsRange g
        · rw [g1 hgr] at hx
          injection hx with hx
          rw [← hx]
          refine midnight_of_start ?_ hg.1
          unfold calendarUnits
          simp only [List.mem_cons, List.not_mem_nil, or_false]
          exact hv
        · obtain ⟨_, g3⟩ := g2 hgr
          rw [hx] at g3
          cases g3
    exact ⟨⟨x.v / 86400000000⟩, (isPair_iff hr).2 ⟨rfl, key.symm⟩⟩

/-- Also where truncating to weeks is wrong (C24), it is wrong in the same way for both. -/
example : (⟨dayNumber ⟨2018, 12, 31⟩⟩ : Date).truncate .debug .unit .week = .ok ⟨dayNumber ⟨2017, 1, 2⟩⟩ := by
  decide +kernel

/-- **C97 (adding days).** Adding days to the date, and then the time, is adding days to the timestamp. -/
theorem C97_add_days (p : Profile) (t x : Timestamp) (d d' : Date) (u : Time) (n : Int) (h : TsRange t.v) (hn : In32 n)
    (e : IsPair p t d u) (hd : d.addDays n = .ok d') (hx : d'.addTime p u = .ok x) :
    t.addInterval p ⟨0, n, 0⟩ = .ok x ∧ IsPair p x d' u := by
  rw [isPair_iff h] at e
  obtain ⟨d1, u1⟩ := e
  have h' := (tsRange_iff _).1 h
  have hD : DateRange d.v := (dateRange_iff _).2 (by omega)
  obtain ⟨a1, a2, -, -⟩ := C04_add_sub_days d n hD hn
  have hD' : DateRange (d.v + n) := by
    by_contra hc
    obtain ⟨_, a3⟩ := a2 hc
    rw [hd] at a3; cases a3
  rw [a1 hD'] at hd
  injection hd with hd
  subst hd
  obtain ⟨b1, b2⟩ := C57_date_time p ⟨d.v + n⟩ u hD' (by omega) (by unfold dayMicros; omega)
  have hX : TsRange ((d.v + n) * dayMicros + u.v) := by
    by_contra hc
    obtain ⟨_, b3⟩ := b2 hc
    rw [hx] at b3; cases b3
  rw [b1 hX] at hx
  injection hx with hx
  subst hx
  have hv : (d.v + n) * dayMicros + u.v = t.v + n * dayMicros := by unfold dayMicros; omega
  rw [isPair_iff hX]
  refine ⟨?_, ?_, ?_⟩
  · dsimp only
    rw [hv] at hX ⊢
    have hX' := (tsRange_iff _).1 hX
    refine (C11_partial p t n h hn (fun _ => ?_) (fun _ => ?_)).1 hX <;>
      (unfold targetDay; rw [show dayNumber firstDay = -2451545 from by decide]; unfold dayMicros at *; omega)
  · unfold dayMicros; dsimp only; omega
  · unfold dayMicros; dsimp only; omega

example : (⟨-1⟩ : Date).addDays 366 = .ok ⟨365⟩ ∧ (⟨365⟩ : Date).addTime .debug ⟨86399999999⟩ = .ok ⟨31622399999999⟩ := by
  decide

/-- **C97 (adding months).** Adding months to the timestamp adds them to the date, whether that works or not, and
keeps the time. -/
theorem C97_add_months (p : Profile) (t : Timestamp) (d : Date) (u : Time) (n : Int) (h : TsRange t.v) (hn : In32 n)
    (e : IsPair p t d u) :
    (∃ x y d', t.addInterval p ⟨n, 0, 0⟩ = .ok x ∧ d.addInterval p ⟨n, 0, 0⟩ = .ok y ∧
      IsPair p x d' u ∧ IsPair p y d' ⟨0⟩) ∨
    ((t.addInterval p ⟨n, 0, 0⟩).IsErr ∧ (d.addInterval p ⟨n, 0, 0⟩).IsErr) := by
  rw [isPair_iff h] at e
  obtain ⟨d1, u1⟩ := e
  have h' := (tsRange_iff _).1 h
  have hm := midnight_range h
  obtain ⟨c, k, hc, hk, hi, a1, a2⟩ := C10_add_months p t n h hn
  obtain ⟨c', k', hc', hk', hi', b1, b2⟩ := C10_add_months p ⟨t.v / 86400000000 * 86400000000⟩ n hm hn
  have q1 := micros_bounds hk
  have q2 := micros_bounds hk'
  dsimp only at hi'
  unfold instant dayMicros at *
  obtain rfl : c = c' := dayNumber_inj hc hc' (by omega)
  have hD : DateRange d.v := (dateRange_iff _).2 (by omega)
  have he : d.addInterval p ⟨n, 0, 0⟩ = (⟨t.v / 86400000000 * 86400000000⟩ : Timestamp).addInterval p ⟨n, 0, 0⟩ := by
    rw [← d1]
    exact ((C57_date_interval p d ⟨n, 0, 0⟩ hD).1 (by
      rw [show dayNumber ⟨294277, 1, 1⟩ = 106751983 from by decide]; omega)).1
  rw [he]
  by_cases hr : TsRange (dayNumber (c.addMonths n) * 86400000000 + k.micros)
  · have hr' : TsRange (dayNumber (c.addMonths n) * 86400000000 + k'.micros) := by
      rw [tsRange_iff] at *; omega
    refine .inl ⟨_, _, ⟨dayNumber (c.addMonths n)⟩, a1 hr, b1 hr', (isPair_iff hr).2 ⟨?_, ?_⟩, (isPair_iff hr').2 ⟨?_, ?_⟩⟩ <;>
      (dsimp only; omega)
  · have hr' : ¬ TsRange (dayNumber (c.addMonths n) * 86400000000 + k'.micros) := by
      rw [tsRange_iff] at *; omega
    exact .inr ⟨a2 hr, b2 hr'⟩

example : IsPair .debug ⟨instant ⟨2024, 1, 31⟩ ⟨12, 0, 0, 0⟩⟩ ⟨dayNumber ⟨2024, 1, 31⟩⟩ ⟨43200000000⟩ := by
  unfold IsPair; decide

/-- **C97 (adding microseconds).** The time of the sum is the sum of the time, modulo a day. -/
theorem C97_add_micros (p : Profile) (t x : Timestamp) (d : Date) (u : Time) (us : Int) (h : TsRange t.v)
    (e : IsPair p t d u) (h1 : In64 (t.v + us)) (h2 : In64 (u.v + us)) (hx : t.addInterval p ⟨0, 0, us⟩ = .ok x) :
    ∃ d' u', u.addInterval p ⟨0, 0, us⟩ = .ok u' ∧ IsPair p x d' u' ∧
      (d'.v - d.v) * dayMicros + (u'.v - u.v) = us := by
  rw [isPair_iff h] at e
  obtain ⟨d1, u1⟩ := e
  obtain ⟨a1, a2⟩ := C12_time_step_partial p t us h h1
  have hX : TsRange (t.v + us) := by
    by_contra hc
    obtain ⟨_, a3⟩ := a2 hc
    rw [hx] at a3; cases a3
  rw [a1 hX] at hx
  injection hx with hx
  subst hx
  refine ⟨⟨(t.v + us) / 86400000000⟩, _, (C20_modular p u ⟨0, 0, us⟩).1 h2, (isPair_iff hX).2 ⟨rfl, ?_⟩, ?_⟩
  · unfold dayMicros; dsimp only; omega
  · unfold dayMicros; dsimp only; omega

example : In64 (-1 + 5) ∧ In64 (86399999999 + 5) ∧ (⟨-1⟩ : Timestamp).addInterval .debug ⟨0, 0, 5⟩ = .ok ⟨4⟩ := by decide

/-- **C97 (text).** Except in the Postgres style, the text of a timestamp is that of the date, a blank (in the XSD style a
`T`) and the text of the time; ` BC` comes last in both. -/
theorem C97_text (p : Profile) (t : Timestamp) (d : Date) (u : Time) (h : TsRange t.v) (e : IsPair p t d u)
    (junk junk' junk'' : Bytes) (hj : junk.length = 128) (hj' : junk'.length = 128) (hj'' : junk''.length = 128)
    (st : DateStyle) (hst : st ≠ .postgres) (o : DateOrder) :
    ∃ day clock era : Bytes, (era = [] ∨ era = b!" BC") ∧ d.format p junk st o = .ok (day ++ era) ∧
      u.format p junk' st = .ok clock ∧
      t.format p junk'' st o = .ok (day ++ (if st = .xsd then b!"T" else b!" ") ++ clock ++ era) := by
  rw [isPair_iff h] at e
  obtain ⟨d1, u1⟩ := e
  have h' := (tsRange_iff _).1 h
  obtain ⟨c, hc, hd, -, -, -⟩ := fields_spec p h
  have hk := clockOf_real t.v
  have hi : instant c (clockOf t.v) = t.v := instant_fields hd
  have hmic := clockOf_micros t.v
  have hD : DateRange d.v := (dateRange_iff _).2 (by omega)
  have ed : d = ⟨dayNumber c⟩ := by obtain ⟨dv⟩ := d; simp only [Date.mk.injEq] at *; omega
  have eu : u = ⟨(clockOf t.v).micros⟩ := by obtain ⟨uv⟩ := u; simp only [Time.mk.injEq] at *; omega
  have et : t = ⟨instant c (clockOf t.v)⟩ := by rw [hi]
  have f1 := C33_text p junk hj c hc (by rw [ed] at hD; exact hD) st o
  have f2 := C51_time p junk' hj' (clockOf t.v) (.inl hk) st
  have f3 := C51_timestamp p junk'' hj'' c (clockOf t.v) hc hk (by rw [hi]; exact h) st o
  rw [← ed] at f1
  rw [← eu] at f2
  rw [← et] at f3
  refine ⟨dayText st o c, _, eraText c.y, ?_, f1, f2, ?_⟩
  · unfold eraText
    split
    · exact .inr rfl
    · exact .inl rfl
  · rw [f3]
    congr 1
    unfold timestampText
    congr 1
    cases st <;> first | exact absurd rfl hst | simp [instantText, dayText]

/-- A day before Christ. -/
example : (⟨instant ⟨-43, 3, 15⟩ ⟨12, 0, 0, 500000⟩⟩ : Timestamp).format .debug (List.replicate 128 0) .xsd .ymd =
    .ok b!"0044-03-15T12:00:00.5 BC" := by decide +kernel

end Props
