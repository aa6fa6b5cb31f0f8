import Verif.Lemmas.IsoWeek
import Verif.Props.Timestamps
import Verif.Props.Times

/-!
# Truncation to units (C24, C25, C26)
-/

namespace Props
open Pg Spec

/-! ## C24 -/

/-- The unit start at or below an instant is unique. -/
theorem unitFloor_unique {u : DateUnit} {x g h : Int} (a : UnitFloor u x g) (b : UnitFloor u x h) :
    g = h := by
  have := a.2.2 _ b.1 b.2.1
  have := b.2.2 _ a.1 a.2.1
  omega

/-- **C24** (all units but weeks). Truncating a valid timestamp gives the latest start of such a
unit not after it; if that start is not a supported timestamp, the call is an error. -/
theorem C24_start_of_unit (p : Profile) {u : DateUnit} (hu : TruncUnit u) (t : Timestamp)
    (h : TsRange t.v) :
    ∃ g, UnitFloor u t.v g ∧ (TsRange g → t.truncate p .unit u = .ok ⟨g⟩) ∧
      (¬ TsRange g → (t.truncate p .unit u).IsErr) := by
  obtain ⟨c, hr, hd, hy1, hy2, he⟩ := fields_spec p h
  have hk := clockOf_real t.v
  have hi := instant_fields (dt := t.v) hd
  refine ⟨_, hi ▸ truncOf_floor hu hr hk, ?_⟩
  have ht := toTimestamp_real p (tmOf (truncDayOf u c) (truncClockOf u (clockOf t.v)))
    (truncClockOf u (clockOf t.v)).us (truncDayOf_real hr) (truncClockOf_real hk)
  unfold Timestamp.truncate
  simp only [he, Res.bind_ok, truncUnit_eq p hu hr hk ⟨hy1, hy2⟩]
  constructor
  · intro hg
    rw [ht.1 hg]; rfl
  · intro hg
    obtain ⟨e, h2⟩ := ht.2 hg
    rw [h2]; exact ⟨e, rfl⟩

example : TruncUnit .quarter ∧ TsRange 5356800000000 ∧
    (⟨5356800000001⟩ : Timestamp).truncate .debug .unit .quarter = .ok ⟨0⟩ ∧
    (⟨-1⟩ : Timestamp).truncate .debug .unit .millennium = .ok ⟨-31536000000000 * 999 - 242 * 86400000000⟩ ∧
    ((⟨-211813488000000000⟩ : Timestamp).truncate .debug .unit .month).IsErr := by
  refine ⟨by unfold TruncUnit; decide, by decide, by decide, by decide, ⟨.invalid, by decide⟩⟩

/-- **C24.** Truncation is the identity on its own results, and monotone. -/
theorem C24_idempotent_monotone (p : Profile) {u : DateUnit} (hu : TruncUnit u)
    (s t : Timestamp) (hs : TsRange s.v) (ht : TsRange t.v) :
    (∀ g, t.truncate p .unit u = .ok g → g.truncate p .unit u = .ok g) ∧
    (∀ g h, s.truncate p .unit u = .ok g → t.truncate p .unit u = .ok h → s.v ≤ t.v → g.v ≤ h.v) := by
  have key : ∀ (x g : Timestamp), TsRange x.v → x.truncate p .unit u = .ok g →
      UnitFloor u x.v g.v ∧ TsRange g.v := by
    intro x g hx hg
    obtain ⟨f, hf, h1, h2⟩ := C24_start_of_unit p hu x hx
    by_cases hr : TsRange f
    · rw [h1 hr] at hg
      cases hg
      exact ⟨hf, hr⟩
    · obtain ⟨e, he⟩ := h2 hr
      rw [he] at hg; cases hg
  constructor
  · intro g hg
    obtain ⟨hf, hr⟩ := key t g ht hg
    obtain ⟨f, hf2, h1, -⟩ := C24_start_of_unit p hu g hr
    have : f = g.v := by
      have := hf2.2.2 _ hf.1 (Int.le_refl _)
      have := hf2.2.1
      omega
    subst this
    exact h1 hr
  · intro g h hg hh hle
    obtain ⟨a, -⟩ := key s g hs hg
    obtain ⟨b, -⟩ := key t h ht hh
    exact b.2.2 _ a.1 (Int.le_trans a.2.1 hle)

/-- Truncation to weeks, for days whose ISO year is not after their calendar year. -/
theorem truncWeek_eq (p : Profile) {c : YMD} {k : Clock} {us Y : Int} (hc : c.Real)
    (h0 : 0 ≤ jdn c.y c.m c.d) (hy : -4713 ≤ c.y ∧ c.y ≤ 294276)
    (hY : Y = c.y - 1 ∨ Y = c.y) (h1 : isoMon Y ≤ jdn c.y c.m c.d)
    (h2 : jdn c.y c.m c.d < isoMon (Y + 1))
    (hw : dateToIsoWeek p c.y c.m c.d = .ok ((jdn c.y c.m c.d - isoMon Y) / 7 + 1))
    (hYl : -4713 ≤ Y) :
    ∃ c' : YMD, c'.Real ∧ dayNumber c' = weekMonday (dayNumber c) ∧
      truncTimestampWeek p (tmOf c k, us) = .ok (tmOf c' ⟨0, 0, 0, 0⟩, 0) := by
  have hb := real_bounds hc
  have hyb := jdn_year_bounds c.y c.m c.d hc
  have f1 := jdn_jan4 Y
  have f2 := jdn_jan4 (Y + 1)
  have e := jdn_year_len Y
  have ec := jdn_eq c
  have m1 : isoMon Y = jdn Y 1 4 - jdn Y 1 4 % 7 := rfl
  have m2 : isoMon (Y + 1) = jdn (Y + 1) 1 4 - jdn (Y + 1) 1 4 % 7 := rfl
  have hbig := jdn_jan4_bounds (y := Y) (by omega)
  have hJ : jdn c.y c.m c.d ≤ 30 + jdn c.y 1 1 ∨ c.m ≠ 1 := by
    by_cases hm : c.m = 1
    · left
      rw [hm, jdn_day c.y 1 c.d (by omega) (by omega)]; omega
    · exact .inr hm
  have hJ2 : 31 + jdn c.y 1 1 ≤ jdn c.y c.m c.d ∨ c.m = 1 := by
    by_cases hm : c.m = 1
    · exact .inr hm
    · left
      have := jdn_month_mono c.y 2 (by omega) (c.m - 2).toNat (by omega)
      rw [show (2 : Int) + ((c.m - 2).toNat : Nat) = c.m by omega] at this
      have s := jdn_month_step c.y 1 (by omega) (by omega)
      have md : monthDays c.y 1 = 31 := by unfold monthDays; rfl
      rw [jdn_day c.y c.m c.d (by omega) (by omega)]
      rw [show (1 : Int) + 1 = 2 by rfl] at s
      omega
  have hJ3 : jdn c.y 1 1 + 330 ≤ jdn c.y c.m c.d ∨ c.m ≠ 12 := by
    by_cases hm : c.m = 12
    · left
      have s := jdn_year_step c.y
      have l := jdn_year_len c.y
      rw [hm, jdn_day c.y 12 c.d (by omega) (by omega)]
      omega
    · exact .inr hm
  have hyr : weekYear p ((jdn c.y c.m c.d - isoMon Y) / 7 + 1) c.m c.y = .ok Y := by
    unfold weekYear
    rcases hY with hY | hY
    · have hY' : Y + 1 = c.y := by omega
      rw [hY'] at f2 m2 h2 e
      rw [if_pos (by omega), chk32_ok (by omega), hY]
    · subst hY
      rw [if_neg (by omega), if_neg (by omega)]
  unfold truncTimestampWeek
  simp only [tmOf, hw, Res.bind_ok, hyr]
  unfold isoWeekToDate isoWeekToJulian
  simp only [isoWeek1_eq p (y := Y) (by omega), Res.bind_ok]
  rw [chk32_ok (by omega), Res.bind_ok, chk32_ok (by omega), Res.bind_ok, chk32_ok (by omega),
    Res.bind_ok]
  obtain ⟨y', m', d', hj, hjd, hre⟩ := julian2date_spec p
    (((jdn c.y c.m c.d - isoMon Y) / 7 + 1 - 1) * 7 + isoMon Y) (by omega) (by omega)
  refine ⟨⟨y', m', d'⟩, hre, ?_, ?_⟩
  · unfold weekMonday weekday
    have := jdn_eq (⟨y', m', d'⟩ : YMD)
    simp only at this
    omega
  · rw [hj]; rfl

/-- **C24**, weeks. The full claim: for every valid timestamp, truncation to weeks is the latest
Monday midnight not after it. Proved for days whose ISO week does not belong to the next calendar
year. Missing: days at the end of December that belong to ISO week 1 of the next year, for which
the code returns a Monday about two years earlier (see `C24_week_violated`). -/
theorem C24_week_partial (p : Profile) (t : Timestamp) (h : TsRange t.v) (c : YMD) (hc : c.Real)
    (hd : dayNumber c = t.v / dayMicros)
    (hw : ∀ w d, ¬ IsoWeekDate (dayNumber c) (c.y + 1) w d) :
    ∃ g, UnitFloor .week t.v g ∧ TsRange g ∧ t.truncate p .unit .week = .ok ⟨g⟩ := by
  obtain ⟨c', hr, hd', hy1, hy2, he⟩ := fields_spec p h
  have hcc : c = c' := dayNumber_inj hc hr (by rw [hd, hd']; rfl)
  subst hcc
  have h' := (tsRange_iff _).1 h
  have ec := jdn_eq c
  obtain ⟨Y, hY, hYl, b1, b2, -, eq⟩ := iso_spec p hr (by omega) ⟨hy1, hy2⟩
  have hY' : Y = c.y - 1 ∨ Y = c.y := by
    rcases hY with a | a | a
    · exact .inl a
    · exact .inr a
    · subst a
      exact absurd (isoWeekDate_iff b1 b2 rfl) (hw _ _)
  obtain ⟨m, hm, hmd, ht⟩ := truncWeek_eq p (k := clockOf t.v) (us := (clockOf t.v).us) hr (by omega)
    ⟨hy1, hy2⟩ hY' b1 b2 eq hYl
  have hmic : (⟨0, 0, 0, 0⟩ : Clock).micros = 0 := by decide
  have hcl : (⟨0, 0, 0, 0⟩ : Clock).Real := by decide
  have hg : TsRange (instant m ⟨0, 0, 0, 0⟩) := by
    rw [tsRange_iff]
    unfold instant dayMicros
    rw [hmic, hmd]
    unfold weekMonday weekday
    omega
  refine ⟨instant m ⟨0, 0, 0, 0⟩, ⟨⟨m, _, hm, hcl, rfl, ?_⟩, ?_, ?_⟩, hg, ?_⟩
  · refine ⟨⟨rfl, rfl, rfl, rfl⟩, ?_⟩
    rw [hmd]; unfold weekMonday weekday; omega
  · unfold instant dayMicros
    rw [hmic, hmd, hd']
    unfold weekMonday weekday
    omega
  · rintro s ⟨c2, t2, r2, k2, rfl, hs, hs2⟩ hle
    unfold instant dayMicros at *
    rw [hmic, hmd, hd']
    have hz : t2.micros = 0 := by
      obtain ⟨q1, q2, q3, q4⟩ := hs
      unfold Clock.micros; rw [q1, q2, q3, q4]; rfl
    unfold weekMonday weekday at *
    omega
  · have htt := (toTimestamp_real p (tmOf m ⟨0, 0, 0, 0⟩) 0 hm hcl).1 hg
    unfold Timestamp.truncate
    simp only [he, Res.bind_ok, Timestamp.truncUnit, ht, htt]
    rfl

example : (⟨2016, 1, 3⟩ : YMD).Real ∧
    (⟨dayNumber ⟨2016, 1, 3⟩ * 86400000000⟩ : Timestamp).truncate .debug .unit .week =
      .ok ⟨dayNumber ⟨2015, 12, 28⟩ * 86400000000⟩ := by decide

/-- **C24 is violated** for weeks: Monday 2018-12-31 (ISO week 1 of 2019) truncates to Monday
2017-01-02, two years earlier, instead of to itself. -/
theorem C24_week_violated (p : Profile) :
    (⟨instant ⟨2018, 12, 31⟩ ⟨12, 0, 0, 0⟩⟩ : Timestamp).truncate p .unit .week =
      .ok ⟨instant ⟨2017, 1, 2⟩ ⟨0, 0, 0, 0⟩⟩ ∧
    IsUnitStart .week (instant ⟨2018, 12, 31⟩ ⟨0, 0, 0, 0⟩) := by
  refine ⟨by cases p <;> decide, ⟨⟨2018, 12, 31⟩, ⟨0, 0, 0, 0⟩, by decide, by decide, rfl, ?_, ?_⟩⟩
  · unfold Clock.Midnight; decide
  · decide

/-! ## C25 -/

/-- **C25.** Truncating first to `b` and then to a unit `a` that is a union of `b` units is
truncating to `a`: same value when Ok, and an error of the first step is an error of the whole. -/
theorem C25_absorb (p : Profile) {a b : DateUnit} (ha : TruncUnit a) (hb : TruncUnit b)
    (hn : Nested a b) (t : Timestamp) (h : TsRange t.v) :
    (∀ x, t.truncate p .unit b = .ok x →
      (∀ y, x.truncate p .unit a = .ok y ↔ t.truncate p .unit a = .ok y) ∧
      ((x.truncate p .unit a).IsErr ↔ (t.truncate p .unit a).IsErr)) ∧
    ((t.truncate p .unit b).IsErr → (t.truncate p .unit a).IsErr) := by
  obtain ⟨g, hg, g1, g2⟩ := C24_start_of_unit p ha t h
  obtain ⟨f, hf, f1, f2⟩ := C24_start_of_unit p hb t h
  have hgf : g ≤ f := hf.2.2 _ (hn _ hg.1) hg.2.1
  have h' := (tsRange_iff _).1 h
  have hgt := hg.2.1
  have hft := hf.2.1
  constructor
  · intro x hx
    have hfr : TsRange f := by
      apply Classical.byContradiction
      intro hc
      obtain ⟨e, he⟩ := f2 hc
      rw [he] at hx; cases hx
    rw [f1 hfr] at hx
    cases hx
    obtain ⟨g', hg', g1', g2'⟩ := C24_start_of_unit p ha ⟨f⟩ hfr
    have : g' = g := by
      have q1 := hg'.2.2 _ hg.1 hgf
      have q2 := hg.2.2 _ hg'.1 (Int.le_trans hg'.2.1 hft)
      omega
    subst this
    by_cases hr : TsRange g'
    · rw [g1 hr, g1' hr]; simp
    · obtain ⟨e, he⟩ := g2 hr
      obtain ⟨e', he'⟩ := g2' hr
      rw [he, he']
      refine ⟨by intro y; simp, ⟨fun _ => ⟨_, rfl⟩, fun _ => ⟨_, rfl⟩⟩⟩
  · intro hx
    apply g2
    intro hr
    have hfr : TsRange f := by
      rw [tsRange_iff] at *; omega
    rw [f1 hfr] at hx
    obtain ⟨e, he⟩ := hx
    cases he

/-- **C25.** Which units are unions of which: the clock units, day, month, quarter and year form a
chain; decades and centuries are unions of years, millennia of centuries, weeks of days. -/
theorem C25_nested :
    (∀ a b c, Nested a b → Nested b c → Nested a c) ∧
    Nested .millisec .microsec ∧ Nested .second .millisec ∧ Nested .minute .second ∧
    Nested .hour .minute ∧ Nested .day .hour ∧ Nested .month .day ∧ Nested .quarter .month ∧
    Nested .year .quarter ∧ Nested .decade .year ∧ Nested .century .year ∧
    Nested .millennium .century ∧ Nested .week .day := by
  refine ⟨fun a b c h1 h2 x hx => h2 x (h1 x hx), ?_⟩
  refine ⟨?_, ?_, ?_, ?_, ?_, ?_, ?_, ?_, ?_, ?_, ?_, ?_⟩ <;>
    rintro x ⟨c, t, hc, ht, he, hs⟩ <;> refine ⟨c, t, hc, ht, he, ?_⟩ <;>
    simp only [UnitStart, Clock.Midnight] at * <;> omega

example : (⟨5356800000001⟩ : Timestamp).truncate .debug .unit .month = .ok ⟨5184000000000⟩ ∧
    (⟨5184000000000⟩ : Timestamp).truncate .debug .unit .century =
      (⟨5356800000001⟩ : Timestamp).truncate .debug .unit .century := by decide

/-- Truncation to weeks depends only on the day of a timestamp. -/
theorem truncWeek_same_day (p : Profile) {s t : Timestamp} (hs : TsRange s.v) (ht : TsRange t.v)
    (hd : s.v / 86400000000 = t.v / 86400000000) :
    s.truncate p .unit .week = t.truncate p .unit .week := by
  obtain ⟨c, hr, hc, -, -, he⟩ := fields_spec p hs
  obtain ⟨c', hr', hc', -, -, he'⟩ := fields_spec p ht
  have : c = c' := dayNumber_inj hr hr' (by omega)
  subst this
  unfold Timestamp.truncate
  simp only [he, he', Res.bind_ok, Timestamp.truncUnit, truncTimestampWeek, isoWeekToDate, tmOf,
    bind_assoc, Res.pure_eq, PgTime.setYmd]

/-- **C25** for weeks: truncating first to a unit that is a part of a day (or to days) does not
change truncation to weeks. -/
theorem C25_absorb_week (p : Profile) {b : DateUnit} (hb : TruncUnit b) (hn : Nested .day b)
    (t : Timestamp) (h : TsRange t.v) :
    ∃ x, t.truncate p .unit b = .ok x ∧
      x.truncate p .unit .week = t.truncate p .unit .week := by
  obtain ⟨g, hg, g1, -⟩ := C24_start_of_unit p (u := .day) (by unfold TruncUnit; decide) t h
  obtain ⟨f, hf, f1, -⟩ := C24_start_of_unit p hb t h
  have h' := (tsRange_iff _).1 h
  obtain ⟨c, hr, hc, -, -, -⟩ := fields_spec p h
  have hday : IsUnitStart .day (instant c ⟨0, 0, 0, 0⟩) :=
    ⟨c, ⟨0, 0, 0, 0⟩, hr, by decide, rfl, ⟨rfl, rfl, rfl, rfl⟩⟩
  have e : instant c ⟨0, 0, 0, 0⟩ = t.v / 86400000000 * 86400000000 := by
    unfold instant dayMicros
    rw [hc]; unfold Clock.micros; simp only; omega
  rw [e] at hday
  have k1 := hf.2.2 _ (hn _ hday) (by omega)
  have k2 := hf.2.1
  have hfr : TsRange f := by rw [tsRange_iff]; omega
  exact ⟨⟨f⟩, f1 hfr, truncWeek_same_day p hfr h (by simp only; omega)⟩

example : (⟨instant ⟨2018, 12, 31⟩ ⟨12, 0, 0, 0⟩⟩ : Timestamp).truncate .debug .unit .hour =
    .ok ⟨instant ⟨2018, 12, 31⟩ ⟨12, 0, 0, 0⟩⟩ := by decide

end Props
