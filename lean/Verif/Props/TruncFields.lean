import Verif.Props.TruncShift
import Verif.Props.MoreParts
import Verif.Props.TruncateTypes
import Verif.Spec.TruncFields

/-!
# Property C91: the fields of a truncated timestamp
-/

namespace Props
open Pg Spec

/-- A valid timestamp and its truncation, with their fields. -/
theorem trunc_fields (p : Profile) {u : DateUnit} (hu : TruncUnit u) {t x : Timestamp} (h : TsRange t.v)
    (hx : t.truncate p .unit u = .ok x) :
    ∃ (c : YMD) (k : Clock), c.Real ∧ k.Real ∧ (truncDayOf u c).Real ∧ TsRange x.v ∧
      dayNumber c = t.v / dayMicros ∧ dayNumber (truncDayOf u c) = x.v / dayMicros ∧
      (∀ v, t.datePart p .unit v = Timestamp.fieldPart p (tmOf c k) k.us v) ∧
      (∀ v, x.datePart p .unit v =
        Timestamp.fieldPart p (tmOf (truncDayOf u c) (truncClockOf u k)) (truncClockOf u k).us v) := by
  obtain ⟨c, hr, hd, hy1, hy2, -⟩ := fields_spec p h
  have hk := clockOf_real t.v
  have hi := instant_fields (dt := t.v) hd
  have hfl := hi ▸ truncOf_floor hu hr hk
  obtain ⟨h1, h2⟩ := truncate_floor p hu h hfl
  have hxx : x = ⟨instant (truncDayOf u c) (truncClockOf u (clockOf t.v))⟩ ∧
      TsRange (instant (truncDayOf u c) (truncClockOf u (clockOf t.v))) := by
    by_cases hg : TsRange (instant (truncDayOf u c) (truncClockOf u (clockOf t.v)))
    · have := h1 hg
      rw [hx, Res.ok.injEq] at this
      exact ⟨this, hg⟩
    · obtain ⟨e, he⟩ := h2 hg
      rw [hx] at he; cases he
  obtain ⟨rfl, hg⟩ := hxx
  have hcr := truncDayOf_real (u := u) hr
  have hkr := truncClockOf_real (u := u) hk
  have hm := micros_bounds hkr
  have e2 : dayNumber (truncDayOf u c) = instant (truncDayOf u c) (truncClockOf u (clockOf t.v)) / dayMicros := by
    unfold instant dayMicros; omega
  refine ⟨c, clockOf t.v, hr, hk, hcr, hg, hd, e2, ?_, ?_⟩
  · intro v
    obtain ⟨c', hr', hd', -, -, e⟩ := datePart_eq p h v
    obtain rfl : c = c' := dayNumber_inj hr hr' (by omega)
    exact e
  · intro v
    obtain ⟨c', hr', hd', -, -, e⟩ := datePart_eq p (t := ⟨instant (truncDayOf u c) (truncClockOf u (clockOf t.v))⟩) hg v
    have hi' := instant_fields (dt := instant (truncDayOf u c) (truncClockOf u (clockOf t.v))) hd'
    obtain ⟨rfl, e4⟩ := instant_unique hr' hcr (clockOf_real _) hkr hi'
    rw [e]
    simp only
    rw [e4]

/-- **C91.** Truncating a timestamp to a unit keeps every field that does not change within a unit. -/
theorem C91_kept (p : Profile) {u v : DateUnit} (hu : TruncUnit u) (t x : Timestamp) (h : TsRange t.v)
    (hx : t.truncate p .unit u = .ok x) (hv : v ∈ keptFields u) : x.datePart p .unit v = t.datePart p .unit v := by
  obtain ⟨c, k, hc, hk, hc', hxr, d1, d2, f1, f2⟩ := trunc_fields p hu h hx
  have hb := real_bounds hc
  obtain ⟨⟨q, eq, hq⟩, -, ⟨de, ed, hd⟩, ⟨ce, ec, hce⟩, ⟨m, em, hm⟩⟩ := C29_fields p t h c hc d1
  obtain ⟨⟨q', eq', hq'⟩, -, ⟨de', ed', hd'⟩, ⟨ce', ec', hce'⟩, ⟨m', em', hm'⟩⟩ := C29_fields p x hxr _ hc' d2
  unfold TruncUnit at hu
  simp only [List.mem_cons, List.not_mem_nil, or_false] at hu
  unfold QuarterField at hq hq'
  unfold DecadeField at hd hd'
  unfold PeriodField at hce hce' hm hm'
  rcases hu with rfl | rfl | rfl | rfl | rfl | rfl | rfl | rfl | rfl | rfl | rfl | rfl <;>
    simp only [keptFields, dayFields, List.mem_cons, List.not_mem_nil, or_false] at hv <;>
    simp only [truncDayOf] at hq' hd' hce' hm' <;>
    rcases hv with rfl | rfl | rfl | rfl | rfl | rfl | rfl | rfl | rfl | rfl | rfl | rfl | rfl | rfl | rfl | rfl | rfl | rfl <;>
    first
      | (rw [f1, f2]; rfl)
      | (rw [eq, eq', Res.ok.injEq, F64.fin_int_inj]; omega)
      | (rw [ed, ed', Res.ok.injEq, F64.fin_int_inj]; omega)
      | (rw [ec, ec', Res.ok.injEq, F64.fin_int_inj]; omega)
      | (rw [em, em', Res.ok.injEq, F64.fin_int_inj]; omega)

/-- **C91.** The fields that count within the unit are at their start. -/
theorem C91_start (p : Profile) {u v : DateUnit} {n : Int} (hu : TruncUnit u) (t x : Timestamp) (h : TsRange t.v)
    (hx : t.truncate p .unit u = .ok x) (hv : (v, n) ∈ startFields u) : x.datePart p .unit v = .ok (.fin n) := by
  obtain ⟨c, k, hc, hk, hc', hxr, d1, d2, f1, f2⟩ := trunc_fields p hu h hx
  obtain ⟨j, ej, -, -, -, hj, -⟩ := C28_doy p x hxr _ hc' d2
  obtain ⟨⟨q', eq', hq'⟩, -⟩ := C29_fields p x hxr _ hc' d2
  unfold QuarterField at hq'
  unfold TruncUnit at hu
  simp only [List.mem_cons, List.not_mem_nil, or_false] at hu
  have z1 : partMicros 0 0 = .fin ((0 : Int) : Rat) := by decide +kernel
  have z2 : partMillis 0 0 = .fin ((0 : Int) : Rat) := by decide +kernel
  have z3 : partSecond 0 0 = .fin ((0 : Int) : Rat) := by decide +kernel
  have z4 : F64.ofInt 0 = .fin ((0 : Int) : Rat) := by decide +kernel
  have z5 : F64.ofInt 1 = .fin ((1 : Int) : Rat) := by decide +kernel
  rcases hu with rfl | rfl | rfl | rfl | rfl | rfl | rfl | rfl | rfl | rfl | rfl | rfl <;>
    simp only [startFields, List.mem_cons, List.not_mem_nil, Prod.mk.injEq] at hv <;>
    simp only [truncDayOf, true_and, and_true, forall_const] at hq' hj <;>
    rcases hv with ⟨rfl, rfl⟩ | ⟨rfl, rfl⟩ | ⟨rfl, rfl⟩ | ⟨rfl, rfl⟩ | ⟨rfl, rfl⟩ | ⟨rfl, rfl⟩ | ⟨rfl, rfl⟩ | ⟨rfl, rfl⟩ | ⟨rfl, rfl⟩ | hv <;>
    first
      | exact hv.elim
      | (rw [f2]; exact congrArg Res.ok z1)
      | (rw [f2]; exact congrArg Res.ok z2)
      | (rw [f2]; exact congrArg Res.ok z3)
      | (rw [f2]; exact congrArg Res.ok z4)
      | (rw [f2]; exact congrArg Res.ok z5)
      | (rw [eq', Res.ok.injEq, F64.fin_int_inj]; omega)
      | (rw [ej, Res.ok.injEq, F64.fin_int_inj]; omega)

/-- **C91.** No other field is kept: within some unit it has two values. -/
theorem C91_only (p : Profile) {u v : DateUnit} (hu : TruncUnit u) (hv : v ∈ keptFields .microsec) (hn : v ∉ keptFields u) :
    ∃ t x : Timestamp, TsRange t.v ∧ t.truncate p .unit u = .ok x ∧ x.datePart p .unit v ≠ t.datePart p .unit v := by
  have key : ∀ u ∈ [DateUnit.microsec, .millisec, .second, .minute, .hour, .day, .month, .quarter, .year, .decade, .century, .millennium],
      ∀ v ∈ keptFields .microsec, v ∉ keptFields u →
      ∃ t ∈ [(⟨instant ⟨2009, 12, 31⟩ ⟨23, 59, 59, 999999⟩⟩ : Timestamp), ⟨instant ⟨2021, 1, 31⟩ ⟨0, 0, 0, 0⟩⟩,
          ⟨instant ⟨2150, 3, 1⟩ ⟨0, 0, 0, 0⟩⟩],
        (match t.truncate p .unit u with
        | .ok x => decide (x.datePart p .unit v ≠ t.datePart p .unit v)
        | _ => false) = true := by
    cases p <;> decide +kernel
  obtain ⟨t, ht, e⟩ := key u hu v hv hn
  have hr : TsRange t.v := by
    simp only [List.mem_cons, List.not_mem_nil, or_false] at ht
    rcases ht with rfl | rfl | rfl <;> decide
  cases hx : t.truncate p .unit u with
  | ok x => rw [hx] at e; exact ⟨t, x, hr, hx, of_decide_eq_true e⟩
  | err _ => rw [hx] at e; cases e
  | panic => rw [hx] at e; cases e

/-- **C91.** The microseconds of the minute are truncated to whole milliseconds or seconds. -/
theorem C91_micros (p : Profile) {u : DateUnit} (hu : u = .millisec ∨ u = .second) (t x : Timestamp) (h : TsRange t.v)
    (hx : t.truncate p .unit u = .ok x) :
    ∃ m n : Int, t.datePart p .unit .microsec = .ok (.fin m) ∧ x.datePart p .unit .microsec = .ok (.fin n) ∧
      n % unitMicros u = 0 ∧ n ≤ m ∧ m < n + unitMicros u := by
  have hT : TruncUnit u := by rcases hu with rfl | rfl <;> (unfold TruncUnit; decide)
  obtain ⟨c, k, hc, hk, hc', hxr, d1, d2, f1, f2⟩ := trunc_fields p hT h hx
  unfold Clock.Real at hk
  have e1 : t.datePart p .unit .microsec = .ok (.fin ((k.s * 1000000 + k.us : Int) : Rat)) := by
    rw [f1]; exact congrArg Res.ok (F64.partMicros_eq (sec := k.s) (fs := k.us) (by omega) (by omega))
  rcases hu with rfl | rfl
  · refine ⟨_, k.s * 1000000 + k.us / 1000 * 1000, e1, ?_, ?_⟩
    · rw [f2]; exact congrArg Res.ok (F64.partMicros_eq (sec := k.s) (fs := k.us / 1000 * 1000) (by omega) (by omega))
    · simp only [unitMicros]; omega
  · refine ⟨_, k.s * 1000000 + 0, e1, ?_, ?_⟩
    · rw [f2]; exact congrArg Res.ok (F64.partMicros_eq (sec := k.s) (fs := 0) (by omega) (by omega))
    · simp only [unitMicros]; omega

/-- **C91**, weeks. The full claim: truncating to weeks keeps the ISO year and week, and gives Monday 00:00. Proved for days
whose ISO year is not the next calendar year. Missing: the other days, where it is false (see `C91_week_violated`). -/
theorem C91_week_partial (p : Profile) (t x : Timestamp) (h : TsRange t.v) (c : YMD) (hc : c.Real)
    (hd : dayNumber c = t.v / dayMicros) (hw : ∀ w d, ¬ IsoWeekDate (dayNumber c) (c.y + 1) w d)
    (hx : t.truncate p .unit .week = .ok x) :
    x.datePart p .unit .week = t.datePart p .unit .week ∧ x.datePart p .unit .isoYear = t.datePart p .unit .isoYear ∧
      x.datePart p .unit .isoDow = .ok (.fin 1) ∧ x.datePart p .unit .hour = .ok (.fin 0) ∧
      x.datePart p .unit .minute = .ok (.fin 0) ∧ x.datePart p .unit .microsec = .ok (.fin 0) := by
  obtain ⟨g, ⟨⟨m, k, hm, hk, hi, hs, hs2⟩, hle, hmax⟩, hg, e⟩ := C24_week_partial p t h c hc hd hw
  rw [hx, Res.ok.injEq] at e
  subst e
  have hz : k.micros = 0 := by
    obtain ⟨q1, q2, q3, q4⟩ := hs
    unfold Clock.micros; rw [q1, q2, q3, q4]; rfl
  unfold instant at hi
  rw [hz] at hi
  obtain ⟨y, w, d, e1, e2, e3, hI, -⟩ := C27_iso_week_date p t h
  obtain ⟨y', w', d', e1', e2', e3', hI', -⟩ := C27_iso_week_date p ⟨g⟩ hg
  simp only at e1' e2' e3' hI'
  have hgm : g / dayMicros = dayNumber m := by unfold dayMicros at *; omega
  have hwk : dayNumber m = weekMonday (t.v / dayMicros) := by
    have hn := hmax (weekMonday (t.v / dayMicros) * dayMicros) (by
      have h' := (tsRange_iff _).1 h
      obtain ⟨c2, hc2, hd2, -⟩ := fields_spec p (t := weekMonday (t.v / dayMicros) * dayMicros) (by
        rw [tsRange_iff]; unfold weekMonday weekday dayMicros; omega)
      replace hd2 : dayNumber c2 = weekMonday (t.v / dayMicros) := by
        rw [hd2]; unfold dayMicros; omega
      refine ⟨c2, ⟨0, 0, 0, 0⟩, hc2, by decide, ?_, ⟨rfl, rfl, rfl, rfl⟩, ?_⟩
      · unfold instant; rw [hd2, show (⟨0, 0, 0, 0⟩ : Clock).micros = 0 from by decide]; omega
      · rw [hd2]; unfold weekMonday weekday; omega)
      (by unfold weekMonday weekday dayMicros; omega)
    unfold weekMonday weekday dayMicros at *
    omega
  have hwm : weekMonday (g / dayMicros) = weekMonday (t.v / dayMicros) := by
    rw [hgm, hwk]; unfold weekMonday weekday; omega
  have key : IsoWeekDate (g / dayMicros) y w 1 := by
    obtain ⟨a, b, -⟩ := hI
    refine ⟨hwm ▸ a, hwm ▸ b, ?_⟩
    rw [hgm, hwk]; unfold weekMonday weekday; omega
  obtain ⟨rfl, rfl, rfl⟩ := (C27_unique _ 0 _ _ _ _ _ _ key).2 hI'
  obtain ⟨hh, mi, us, s, ms, g1, g2, g3, -, -, hsum, q1, q2, q3, q4, -⟩ := (C54_timestamp p ⟨g⟩ hg m hm hgm.symm).1
  simp only at g1 g2 g3
  have hmod : g % dayMicros = 0 := by unfold dayMicros at *; omega
  simp only [hmod] at hsum
  have hhb : 0 ≤ hh := by
    obtain ⟨c', -, -, -, -, e⟩ := datePart_eq p hg .hour
    have hk := clockOf_real g
    unfold Clock.Real at hk
    rw [show (⟨g⟩ : Timestamp).datePart p .unit .hour = .ok (.fin ((clockOf g).h : Rat)) from
      e.trans (congrArg Res.ok (F64.ofInt_ok (n := (clockOf g).h) (by omega))), Res.ok.injEq, F64.fin_int_inj] at g1
    omega
  obtain ⟨rfl, rfl, rfl⟩ : hh = 0 ∧ mi = 0 ∧ us = 0 := by omega
  refine ⟨e2'.trans e2.symm, e1'.trans e1.symm, ?_, ?_, ?_, ?_⟩
  · rw [e3']; rfl
  · rw [g1]; rfl
  · rw [g2]; rfl
  · rw [g3]; rfl

/-- **C91 is violated** for weeks: Monday 2018-12-31 is in week 1 of 2019, but truncated to weeks it is in 2017. -/
theorem C91_week_violated (p : Profile) :
    ∃ t x : Timestamp, TsRange t.v ∧ t.truncate p .unit .week = .ok x ∧ t.datePart p .unit .isoYear = .ok (.fin 2019) ∧
      x.datePart p .unit .isoYear = .ok (.fin 2017) := by
  refine ⟨⟨instant ⟨2018, 12, 31⟩ ⟨12, 0, 0, 0⟩⟩, ⟨instant ⟨2017, 1, 2⟩ ⟨0, 0, 0, 0⟩⟩, by decide, ?_⟩
  cases p <;> decide +kernel

/-- **C91**, times of day below 24:00: the larger fields are kept, the smaller are zero. -/
theorem C91_time (p : Profile) (t x : Time) (h0 : 0 ≤ t.v) (h1 : t.v < dayMicros) {u : DateUnit}
    (hu : u = .hour ∨ u = .minute ∨ u = .second ∨ u = .millisec) (hx : t.truncate p .unit u = .ok x) :
    x.datePart p .unit .hour = t.datePart p .unit .hour ∧
    (u ≠ .hour → x.datePart p .unit .minute = t.datePart p .unit .minute) ∧
    (u = .hour → x.datePart p .unit .minute = .ok (.fin 0)) ∧
    ∃ m n : Int, t.datePart p .unit .microsec = .ok (.fin m) ∧ x.datePart p .unit .microsec = .ok (.fin n) ∧
      (u = .hour ∨ u = .minute → n = 0) ∧ (u = .second ∨ u = .millisec → n = m / unitMicros u * unitMicros u) := by
  have hf : FineUnit u := by rcases hu with rfl | rfl | rfl | rfl <;> decide
  obtain ⟨r, hr, r1, r2, r3⟩ := C26_time_partial p t h0 h1 u hf
  rw [hx, Res.ok.injEq] at hr
  subst hr
  have hb : 0 ≤ r := by
    rcases hu with rfl | rfl | rfl | rfl <;> simp only [unitMicros] at r1 r3 <;> omega
  obtain ⟨a1, a2, a3, -, -, b1, b2, b3, -, -, d, d1, d2, d3, d4, -⟩ := (C54_time p t h0 (by omega)).1
  obtain ⟨a1', a2', a3', -, -, b1', b2', b3', -, -, d', d1', d2', d3', d4', -⟩ := (C54_time p ⟨r⟩ hb (by simp only; omega)).1
  simp only at b1 b2 b3 b1' b2' b3' d'
  rw [b1, b2, b3, b1', b2', b3']
  rcases hu with rfl | rfl | rfl | rfl <;> simp only [unitMicros] at r1 r3 ⊢
  · obtain ⟨rfl, rfl, rfl⟩ : a1' = a1 ∧ a2' = 0 ∧ a3' = 0 := by omega
    exact ⟨rfl, fun h => absurd rfl h, fun _ => rfl, a3, 0, rfl, rfl, fun _ => rfl, fun h => by simp at h⟩
  · obtain ⟨rfl, rfl, rfl⟩ : a1' = a1 ∧ a2' = a2 ∧ a3' = 0 := by omega
    exact ⟨rfl, fun _ => rfl, fun h => by simp at h, a3, 0, rfl, rfl, fun _ => rfl, fun h => by simp at h⟩
  · obtain ⟨rfl, rfl, rfl⟩ : a1' = a1 ∧ a2' = a2 ∧ a3' = a3 / 1000000 * 1000000 := by omega
    exact ⟨rfl, fun _ => rfl, fun h => by simp at h, a3, _, rfl, rfl, fun h => by simp at h, fun _ => rfl⟩
  · obtain ⟨rfl, rfl, rfl⟩ : a1' = a1 ∧ a2' = a2 ∧ a3' = a3 / 1000 * 1000 := by omega
    exact ⟨rfl, fun _ => rfl, fun h => by simp at h, a3, _, rfl, rfl, fun h => by simp at h, fun _ => rfl⟩

/-- Witnesses: 1 March 44 BC 13:45 truncated to centuries is 1 January 100 BC, still century -1 but no longer year -44; a
Sunday in January of an ISO week of the year before. -/
example : TruncUnit .century ∧ TsRange (instant ⟨-43, 3, 1⟩ ⟨13, 45, 0, 0⟩) ∧ DateUnit.century ∈ keptFields .century ∧
    DateUnit.year ∉ keptFields .century ∧ (DateUnit.doy, (1 : Int)) ∈ startFields .century ∧
    (⟨instant ⟨-43, 3, 1⟩ ⟨13, 45, 0, 0⟩⟩ : Timestamp).truncate .debug .unit .century =
      .ok ⟨instant ⟨-99, 1, 1⟩ ⟨0, 0, 0, 0⟩⟩ ∧
    (⟨instant ⟨-99, 1, 1⟩ ⟨0, 0, 0, 0⟩⟩ : Timestamp).datePart .debug .unit .century = .ok (.fin (-1)) ∧
    (⟨instant ⟨-43, 3, 1⟩ ⟨13, 45, 0, 0⟩⟩ : Timestamp).datePart .debug .unit .century = .ok (.fin (-1)) ∧
    (⟨instant ⟨2016, 1, 3⟩ ⟨9, 0, 0, 0⟩⟩ : Timestamp).truncate .debug .unit .week =
      .ok ⟨instant ⟨2015, 12, 28⟩ ⟨0, 0, 0, 0⟩⟩ ∧
    (⟨instant ⟨2016, 1, 3⟩ ⟨9, 0, 0, 0⟩⟩ : Timestamp).datePart .debug .unit .week = .ok (.fin 53) ∧
    (⟨45296789012⟩ : Time).truncate .debug .unit .millisec = .ok ⟨45296789000⟩ := by
  refine ⟨by unfold TruncUnit; decide, ?_⟩
  decide +kernel

end Props
