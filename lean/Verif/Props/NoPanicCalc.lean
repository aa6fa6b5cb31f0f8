import Verif.Lemmas.NoPanic
import Verif.Props.TruncateTypes
import Verif.Props.DateParts
import Verif.Props.StampParts
import Verif.Props.IntervalParts
import Verif.Props.MoreParts
import Verif.Props.Age
import Verif.Props.Dates
import Verif.Props.StampInput
import Verif.Props.MixedArith
import Verif.Props.Scale
import Verif.Props.Texts
import Verif.Props.IntervalText

/-!
# C87: calculating does not panic
-/

namespace Pg
open Spec Props

/-- A supported timestamp, or one of the two infinities. -/
def StampOk (t : Timestamp) : Prop := TsRange t.v ∨ t = Timestamp.BEGIN ∨ t = Timestamp.END
/-- A supported date, or one of the two infinities. -/
def DayOk (d : Date) : Prop := DateRange d.v ∨ d = Date.BEGIN ∨ d = Date.END
/-- A time of day from 00:00 to 24:00. -/
def ClockOk (t : Time) : Prop := 0 ≤ t.v ∧ t.v ≤ dayMicros

theorem np_ok {α : Type} {r : Res α} {a : α} (h : r = .ok a) : r ≠ .panic := by rw [h]; exact Res.safe_ok _
theorem np_err {α : Type} {r : Res α} (h : r.IsErr) : r ≠ .panic := by obtain ⟨e, h⟩ := h; rw [h]; exact Res.safe_err _
theorem np_or {α : Type} {r : Res α} {c : Prop} {a : α} (h1 : c → r = .ok a) (h2 : ¬ c → r.IsErr) : r ≠ .panic := by
  by_cases h : c
  · exact np_ok (h1 h)
  · exact np_err (h2 h)

theorem targetDay_eq (t n : Int) : targetDay t n = t / 86400000000 + n + 2451545 := by
  unfold targetDay dayMicros
  rw [show dayNumber firstDay = -2451545 from by decide]; omega

theorem addDays_release (t n : Int) : Timestamp.addDays .release t n ≠ .panic := by
  unfold Timestamp.addDays timestamp2time timestampModulo dayNormalize
  have h1 := date2julian_release
  have h2 := julian2date_release
  have h3 := toTimestamp_release
  have h4 := date2time_release
  refine Res.safe_bind ?_ fun _ => ?_
  · refine Res.safe_bind ?_ fun _ => Res.safe_bind ?_ fun _ => Res.safe_bind (chk64_release _) fun _ => ?_
    · calmly
    · calmly
    · dsimp only
      split
      · exact Res.safe_err _
      · exact Res.safe_bind (h2 _) fun _ => Res.safe_bind (h4 _) fun _ => Res.safe_pure _
  · exact Res.safe_bind (h1 _ _ _) fun _ => Res.safe_bind (h2 _) fun _ => h3 _ _

theorem monthStep_safe (p : Profile) {t n : Int} (h : TsRange t) (hn : In32 n) : Timestamp.monthStep p t n ≠ .panic := by
  unfold Timestamp.monthStep
  split
  · obtain ⟨c, -, -, h1, h2⟩ := addMonths_spec p h hn
    exact np_or h1 h2
  · exact Res.safe_ok _

theorem dayStep_safe (p : Profile) {t n : Int} (h : TsRange t) (hn : In32 n)
    (hd : p = .debug → ¬ (-120296 ≤ targetDay t n ∧ targetDay t n ≤ -1)) : Timestamp.dayStep p t n ≠ .panic := by
  unfold Timestamp.dayStep
  split
  · cases p
    · rw [targetDay_eq] at hd
      have := addDays_spec .debug h hn ⟨hd, fun h => by cases h⟩
      exact np_or this.1 this.2
    · exact addDays_release _ _
  · exact Res.safe_ok _

/-- The day step of adding `a` to a finite `t` does not land on one of the 120296 days before the first
supported day. -/
def ClearDay (p : Profile) (t : Timestamp) (a : Interval) : Prop :=
  TsRange t.v → ∀ r, t.addInterval p ⟨a.month, 0, 0⟩ = .ok r → ¬ (-120296 ≤ targetDay r.v a.day ∧ targetDay r.v a.day ≤ -1)

theorem addInterval_safe (p : Profile) {t : Timestamp} (h : StampOk t) {a : Interval} (h1 : In32 a.month)
    (h2 : In32 a.day) (hd : p = .debug → ClearDay p t a) : t.addInterval p a ≠ .panic := by
  rcases h with h | rfl | rfl
  · rw [addInterval_finite p h]
    refine Res.safe_bind_post (monthStep_safe p h h1) fun r hr => ?_
    have hv := monthStep_valid h hr
    refine Res.safe_bind (dayStep_safe p hv h2 fun hp => ?_) fun _ => Res.safe_ite (Res.safe_ok _) (Res.safe_err _)
    refine hd hp h ⟨r⟩ ?_
    rw [addInterval_finite p h, hr, Res.bind_ok]
    simp only [Timestamp.dayStep, ne_eq, not_true_eq_false, if_false, Res.bind_ok, wrap64_valid hv]
    rw [if_pos ((isValidTimestamp_iff _).2 hv)]
  · exact np_ok rfl
  · exact np_ok rfl

theorem clear_noDays {p : Profile} {t : Timestamp} {a : Interval} (hd : a.day = 0) : ClearDay p t a := by
  intro h r hr
  rw [hd, targetDay_eq]
  rcases C12_ok_valid p t r _ hr with hv | ⟨hi, he⟩
  · rw [tsRange_iff] at hv; omega
  · rw [notInf h] at hi; cases hi

theorem subInterval_safe (p : Profile) {t : Timestamp} (h : StampOk t) {a : Interval}
    (hd : p = .debug → ClearDay p t ⟨-a.month, -a.day, -a.time⟩) : t.subInterval p a ≠ .panic := by
  rw [C13_sub_is_add_neg]
  split
  · rename_i hc
    exact addInterval_safe p h hc.1 hc.2.1 hd
  · exact Res.safe_err _

theorem isoStart_release (y d : Int) : isoStart .release y d ≠ .panic := by
  have h1 := date2julian_release
  have hw : ∀ y, isoWeek1 .release y ≠ .panic := by
    intro y
    unfold isoWeek1 julianToWeekDay
    refine Res.safe_bind (h1 _ _ _) fun _ => ?_
    calmly
  unfold isoStart
  exact Res.safe_bind (hw _) fun _ => Res.safe_ite (Res.safe_bind (chk32_release _) fun _ => Res.safe_bind (hw _) fun _ => Res.safe_pure _) (Res.safe_pure _)

theorem isoWeek1_release (y : Int) : isoWeek1 .release y ≠ .panic := by
  have h1 := date2julian_release
  unfold isoWeek1 julianToWeekDay
  refine Res.safe_bind (h1 _ _ _) fun _ => ?_
  calmly

theorem truncWeek_release (s : TmF) : truncTimestampWeek .release s ≠ .panic := by
  have h1 := date2julian_release
  have h2 := julian2date_release
  have h3 := isoStart_release
  have h4 := isoWeek1_release
  unfold truncTimestampWeek dateToIsoWeek weekYear isoWeekToDate isoWeekToJulian
  refine Res.safe_bind ?_ fun _ => Res.safe_bind ?_ fun _ => Res.safe_bind ?_ fun _ => Res.safe_pure _
  · refine Res.safe_bind (h1 _ _ _) fun _ => Res.safe_bind (h3 _ _) fun _ => ?_
    dsimp only
    refine Res.safe_bind (chk32_release _) fun _ => Res.safe_bind (chk32_release _) fun _ => Res.safe_ite ?_ (Res.safe_pure _)
    refine Res.safe_bind (chk32_release _) fun _ => Res.safe_bind (h4 _) fun _ => ?_
    calmly
  · calmly
  · refine Res.safe_bind (Res.safe_bind (h4 _) fun _ => ?_) fun _ => Res.safe_bind (h2 _) fun _ => Res.safe_pure _
    calmly

theorem timestamp2time_safe (p : Profile) {v : Int} (h0 : -211813488000000000 ≤ v) (h1 : v ≤ 9223372036854775807) :
    timestamp2time p v ≠ .panic := by
  obtain ⟨c, -, -, he⟩ := timestamp2time_spec p v h0 h1
  exact np_ok he

theorem week_safe (p : Profile) {t : Timestamp} (h : TsRange t.v)
    (hd : p = .debug → ¬ (35 ≤ targetDay t.v 0 ∧ targetDay t.v 0 ≤ 37)) : t.truncate p .unit .week ≠ .panic := by
  obtain ⟨c, hr, hdn, hy1, hy2, he⟩ := fields_spec p h
  cases p
  · have h' := (tsRange_iff _).1 h
    have ec := jdn_eq c
    have hd := hd rfl
    rw [targetDay_eq] at hd
    obtain ⟨Y, hY, hYl, b1, b2, -, eq⟩ := iso_spec .debug hr (by omega) ⟨hy1, hy2⟩
    unfold Timestamp.truncate
    dsimp only
    rw [he, Res.bind_ok]
    unfold Timestamp.truncUnit
    dsimp only
    have hcl : (⟨0, 0, 0, 0⟩ : Clock).Real := by decide
    by_cases hY' : Y = c.y - 1 ∨ Y = c.y
    · obtain ⟨m, hm, -, ht⟩ := truncWeek_eq .debug (k := clockOf t.v) (us := (clockOf t.v).us) hr (by omega)
        ⟨hy1, hy2⟩ hY' b1 b2 eq hYl
      rw [ht, Res.bind_ok]
      have := toTimestamp_real .debug (tmOf m ⟨0, 0, 0, 0⟩) 0 hm hcl
      exact Res.safe_bind (np_or this.1 this.2) fun _ => Res.safe_pure _
    · obtain rfl : Y = c.y + 1 := by omega
      have hyb := jdn_year_bounds c.y c.m c.d hr
      have m1 : isoMon (c.y + 1) = jdn (c.y + 1) 1 4 - jdn (c.y + 1) 1 4 % 7 := rfl
      have f1 := jdn_jan4 (c.y + 1)
      have hy : -4711 ≤ c.y := by
        by_cases e1 : c.y = -4713
        · rw [e1, show isoMon (-4713 + 1) = 35 from by decide] at b1
          rw [e1, show jdn (-4713 + 1) 1 1 = 38 from by decide] at hyb
          rw [e1] at ec
          omega
        · by_cases e2 : c.y = -4712
          · rw [e2, show isoMon (-4712 + 1) = 406 from by decide] at b1
            rw [e2, show jdn (-4712 + 1) 1 1 = 404 from by decide] at hyb
            omega
          · omega
      have hpos : ∀ y, -4712 ≤ y → y ≤ 294276 → 0 ≤ isoMon y ∧ isoMon y ≤ 110000000 := by
        intro y h1 h2
        have : 7 ≤ jdn y 1 4 := by
          rw [jdn_closed _ _ _ (by omega) (by omega)]
          simp; omega
        have := jdn_jan4_bounds (y := y) (by omega)
        unfold isoMon; omega
      have key : ∀ y, -4712 ≤ y → y ≤ 294276 → ∃ m : YMD, m.Real ∧
          isoWeekToDate .debug 1 { (tmOf c (clockOf t.v)) with year := y } = .ok (tmOf m (clockOf t.v)) := by
        intro y h1 h2
        unfold isoWeekToDate isoWeekToJulian
        have := hpos y h1 h2
        dsimp only
        rw [isoWeek1_eq .debug (by omega), Res.bind_ok, chk32_ok (by omega), Res.bind_ok, chk32_ok (by omega),
          Res.bind_ok, chk32_ok (by omega), Res.bind_ok]
        obtain ⟨y', m', d', hj, -, hre⟩ := julian2date_spec .debug ((1 - 1) * 7 + isoMon y) (by omega) (by omega)
        exact ⟨⟨y', m', d'⟩, hre, by rw [hj]; rfl⟩
      have hw : ∃ y, -4712 ≤ y ∧ y ≤ 294276 ∧ weekYear .debug 1 c.m c.y = .ok y := by
        unfold weekYear
        split
        · omega
        · split
          · exact ⟨c.y - 1, by omega, by omega, by rw [chk32_ok (by omega)]⟩
          · exact ⟨c.y, by omega, by omega, rfl⟩
      obtain ⟨y, h1, h2, hwy⟩ := hw
      obtain ⟨m, hm, hk⟩ := key y h1 h2
      unfold truncTimestampWeek
      rw [show (tmOf c (clockOf t.v)).year = c.y from rfl, show (tmOf c (clockOf t.v)).mon = c.m from rfl,
        show (tmOf c (clockOf t.v)).mday = c.d from rfl, eq, Res.bind_ok,
        show (jdn c.y c.m c.d - isoMon (c.y + 1)) / 7 + 1 = 1 by omega, hwy, Res.bind_ok, hk, Res.bind_ok, Res.pure_eq,
        Res.bind_ok]
      have := toTimestamp_real .debug (tmOf m ⟨0, 0, 0, 0⟩) 0 hm hcl
      exact Res.safe_bind (np_or this.1 this.2) fun _ => Res.safe_pure _
  · unfold Timestamp.truncate
    dsimp only
    rw [he, Res.bind_ok]
    exact Res.safe_bind (truncWeek_release _) fun _ => Res.safe_bind (toTimestamp_release _ _) fun _ => Res.safe_pure _

theorem end_truncate (p : Profile) (u : DateUnit) : Timestamp.END.truncate p .unit u ≠ .panic := by
  cases p <;> cases u <;> decide

theorem begin_truncate (p : Profile) (u : DateUnit) : Timestamp.BEGIN.truncate p .unit u ≠ .panic := by
  cases p <;> cases u <;> decide

theorem truncate_safe (p : Profile) {t : Timestamp} (h : StampOk t) (ty : FieldType) (u : DateUnit)
    (hd : p = .debug → u = .week → ¬ (35 ≤ targetDay t.v 0 ∧ targetDay t.v 0 ≤ 37)) :
    t.truncate p ty u ≠ .panic := by
  cases ty
  rotate_left
  · exact Res.safe_err _
  rcases h with h | rfl | rfl
  · by_cases hu : TruncUnit u
    · obtain ⟨g, -, h1, h2⟩ := C24_start_of_unit p hu t h
      exact np_or h1 h2
    · by_cases hw : u = .week
      · subst hw; exact week_safe p h fun hp => hd hp rfl
      · obtain ⟨c, -, -, -, -, he⟩ := fields_spec p h
        unfold Timestamp.truncate
        dsimp only
        have e : ∀ x, Timestamp.truncUnit p x u = .err .invalid := by
          intro x
          cases u <;> first | rfl | exact absurd rfl hw | exact absurd (by unfold TruncUnit; decide) hu
        rw [he, Res.bind_ok, e]
        exact Res.safe_err _
  · exact begin_truncate p u
  · exact end_truncate p u

theorem datePart_safe (p : Profile) {t : Timestamp} (h : StampOk t) (ty : FieldType) (u : DateUnit) :
    t.datePart p ty u ≠ .panic := by
  rcases h with h | rfl | rfl
  · cases ty
    · obtain ⟨c, hr, hd, -, -, he⟩ := fields_spec p h
      obtain ⟨⟨a1, a2, a3, a4, a5, b1, b2, b3, b4, b5, -⟩, b6, b7, a8, b8, -⟩ := C54_timestamp p t h c hr hd
      obtain ⟨y, w, d, c1, c2, c3, -⟩ := C27_iso_week_date p t h
      have d1 := C28_dow p t h
      obtain ⟨k, d2, -⟩ := C28_doy p t h c hr hd
      obtain ⟨⟨_, e1, -⟩, ⟨_, e2, -⟩, ⟨_, e3, -⟩, ⟨_, e4, -⟩, ⟨_, e5, -⟩⟩ := C29_fields p t h c hr hd
      have eo : ∀ v, (∀ x y, Timestamp.fieldPart p x y v = .err .invalid) → t.datePart p .unit v ≠ .panic := by
        intro v hv
        unfold Timestamp.datePart
        rw [notInf h]
        simp only [Bool.false_eq_true, if_false, he, Res.bind_ok, hv]
        exact Res.safe_err _
      cases u
      case hour => exact np_ok b1
      case minute => exact np_ok b2
      case microsec => exact np_ok b3
      case second => exact np_ok b4
      case millisec => exact np_ok b5
      case day => exact np_ok b6
      case month => exact np_ok b7
      case julian => exact np_ok b8
      case isoYear => exact np_ok c1
      case week => exact np_ok c2
      case isoDow => exact np_ok c3
      case dow => exact np_ok d1
      case doy => exact np_ok d2
      case quarter => exact np_ok e1
      case year => exact np_ok e2
      case decade => exact np_ok e3
      case century => exact np_ok e4
      case millennium => exact np_ok e5
      all_goals exact eo _ fun _ _ => rfl
    · unfold Timestamp.datePart
      rw [notInf h]
      exact Res.safe_err _
  · unfold Timestamp.datePart
    rw [if_pos (by decide)]
    cases u <;> first | exact Res.safe_ok _ | exact Res.safe_err _
  · unfold Timestamp.datePart
    rw [if_pos (by decide)]
    cases u <;> first | exact Res.safe_ok _ | exact Res.safe_err _

theorem subTimestamp_safe (p : Profile) {a b : Timestamp} (ha : StampOk a) (hb : StampOk b)
    (hd : p = .debug → TsRange a.v → TsRange b.v → In64 (a.v - b.v)) : a.subTimestamp p b ≠ .panic := by
  have ei : ∀ x y : Timestamp, (x.isInfinite = true ∨ y.isInfinite = true) → x.subTimestamp p y ≠ .panic := by
    intro x y hx
    unfold Timestamp.subTimestamp
    rw [if_pos (by rcases hx with h | h <;> rw [h] <;> simp)]
    exact Res.safe_err _
  rcases ha with ha | rfl | rfl
  · rcases hb with hb | rfl | rfl
    · unfold Timestamp.subTimestamp
      rw [notInf ha, notInf hb]
      simp only [Bool.or_self, Bool.false_eq_true, if_false]
      have hj : ∀ x, In64 x → Interval.justifyHours p ⟨0, 0, x⟩ ≠ .panic := fun x hx =>
        C16_no_panic p ⟨0, 0, x⟩ ⟨show In32 0 by decide, show In32 0 by decide, hx⟩
      cases p
      · have := hd rfl ha hb
        rw [chk64_ok (by unfold In64 at this; omega), Res.bind_ok]
        exact hj _ this
      · refine Res.safe_bind_post (chk64_release _) fun x hx => hj _ ?_
        unfold chk64 at hx
        split at hx
        · injection hx with hx; subst hx; assumption
        · injection hx with hx; subst hx; unfold wrap64 In64; omega
    · exact ei _ _ (.inr (by decide))
    · exact ei _ _ (.inr (by decide))
  · exact ei _ _ (.inl (by decide))
  · exact ei _ _ (.inl (by decide))

theorem ofDate_spec (p : Profile) {d : Date} (h : DayOk d) :
    Timestamp.ofDate p d ≠ .panic ∧ ∀ t, Timestamp.ofDate p d = .ok t → StampOk t ∧ (TsRange t.v → t.v = d.v * dayMicros) := by
  rcases h with h | rfl | rfl
  · have hc := C06_date_to_timestamp p d h
    by_cases hlt : d.v < dayNumber ⟨294277, 1, 1⟩
    · obtain ⟨e, hr, -⟩ := hc.1 hlt
      refine ⟨np_ok e, fun t ht => ?_⟩
      rw [e] at ht; injection ht with ht; subst ht
      exact ⟨.inl hr, fun _ => rfl⟩
    · have he := hc.2 hlt
      refine ⟨np_err he, fun t ht => ?_⟩
      obtain ⟨x, he⟩ := he
      rw [he] at ht; cases ht
  · refine ⟨np_ok rfl, fun t ht => ?_⟩
    injection ht with ht; subst ht
    exact ⟨.inr (.inl rfl), fun h => absurd ((tsRange_iff _).1 h) (by unfold Timestamp.BEGIN; simp)⟩
  · refine ⟨np_ok rfl, fun t ht => ?_⟩
    injection ht with ht; subst ht
    exact ⟨.inr (.inr rfl), fun h => absurd ((tsRange_iff _).1 h) (by unfold Timestamp.END; simp)⟩

theorem truncate_valid {p : Profile} {t r : Timestamp} {ty : FieldType} {u : DateUnit} (h : t.truncate p ty u = .ok r) :
    TsRange r.v := by
  unfold Timestamp.truncate at h
  cases ty
  · simp only [Res.bind_eq_ok] at h
    obtain ⟨_, -, _, -, x, hx, h⟩ := h
    injection h with h; subst h
    exact toTimestamp_valid hx
  · cases h

theorem dateOf_safe (p : Profile) {t : Timestamp} (h : StampOk t) :
    Date.ofTimestamp p t ≠ .panic ∧ Time.ofTimestamp p t ≠ .panic := by
  rcases h with h | rfl | rfl
  · obtain ⟨d, u, h1, h2, -⟩ := C07_split_join p t h
    exact ⟨np_ok h1, np_ok h2⟩
  · exact ⟨np_ok rfl, np_ok rfl⟩
  · exact ⟨np_ok rfl, np_ok rfl⟩

theorem intervalTruncate_safe (p : Profile) {a : Interval} (h : a.WF) (ty : FieldType) (u : DateUnit)
    (hd : FineUnit u → In32 (Int.tdiv a.time 3600000000) → In32 (Int.tdiv a.time 60000000)) :
    a.truncate p ty u ≠ .panic := by
  cases ty
  · by_cases hu : CoarseUnit u ∨ FineUnit u
    · have := C26_interval_partial p a h u (hu.imp id fun hf => ⟨hf, hd hf⟩)
      by_cases hh : In32 (Int.tdiv a.time 3600000000)
      · obtain ⟨r, hr, -⟩ := this.1 hh
        exact np_ok hr
      · exact np_err ⟨_, this.2 hh⟩
    · unfold Interval.truncate
      dsimp only
      rw [toPgtime_eq p h.2.2]
      split
      · have e : ∀ x, Interval.truncUnit x u = .err .invalid := by
          intro x
          cases u <;> first | rfl | exact absurd (.inl (by unfold CoarseUnit; decide)) hu | exact absurd (.inr (by unfold FineUnit; decide)) hu
        rw [Res.bind_ok, e]
        exact Res.safe_err _
      · exact Res.safe_err _
  · exact Res.safe_err _

theorem intervalPart_safe (p : Profile) {a : Interval} (h : a.WF) (ty : FieldType) (u : DateUnit) :
    a.datePart p ty u ≠ .panic := by
  cases ty
  · unfold Interval.datePart
    dsimp only
    rw [toPgtime_eq p h.2.2]
    split
    · rw [Res.bind_ok]
      unfold Interval.fieldPart
      dsimp only
      cases u <;> first | exact Res.safe_ok _ | exact Res.safe_err _ | skip
      unfold Interval.partQuarter
      dsimp only
      have := tmod_or a.month 12
      have h2 := tdiv_or (ivTm a).mon 3
      unfold ivTm at h2 ⊢
      dsimp only at h2 ⊢
      rw [chk32_ok (by omega), Res.bind_ok]
      exact Res.safe_pure _
    · exact Res.safe_err _
  · unfold Interval.datePart
    dsimp only
    split
    · exact Res.safe_ok _
    · exact Res.safe_err _

theorem ofInterval_safe (p : Profile) {a : Interval} (h : In64 a.time)
    (hd : p = .debug → -(9223372036854775807 - dayMicros) ≤ a.time) : Time.ofInterval p a ≠ .panic := by
  cases p
  · exact np_ok (C21_partial .debug a h (hd rfl))
  · unfold Time.ofInterval
    calmly

theorem timeTruncate_safe (p : Profile) {t : Time} (h : ClockOk t) (ty : FieldType) (u : DateUnit) :
    t.truncate p ty u ≠ .panic := by
  have hw : (Interval.ofTime t).WF := by
    unfold ClockOk dayMicros at h
    unfold Interval.WF Interval.ofTime In32 In64; simp only; omega
  have q1 := tdiv_or t.v 3600000000
  have q2 := tdiv_or t.v 60000000
  have hs := intervalTruncate_safe p hw ty u (fun _ _ => by
    unfold ClockOk dayMicros at h
    unfold Interval.ofTime In32; simp only; omega)
  unfold Time.truncate
  unfold ClockOk dayMicros at h
  have key : ∀ r, (Interval.ofTime t).truncate p ty u = .ok r → In64 r.time ∧ 0 ≤ r.time := by
    intro r hr
    cases ty
    · by_cases hu : CoarseUnit u ∨ FineUnit u
      · obtain ⟨r', hr', hw', ht⟩ := (C26_interval_partial p _ hw u (hu.imp id fun hf => ⟨hf, fun _ => by
          unfold Interval.ofTime In32; simp only; omega⟩)).1 (by unfold Interval.ofTime In32; simp only; omega)
        rw [hr'] at hr; injection hr with hr; subst hr
        refine ⟨hw'.2.2, ?_⟩
        have e : (Interval.ofTime t).time = t.v := rfl
        rw [e] at ht
        cases u <;> simp only [IntervalTrunc, TruncZero] at ht <;> omega
      · unfold Interval.truncate at hr
        dsimp only at hr
        have e : ∀ x, Interval.truncUnit x u = .err .invalid := by
          intro x
          cases u <;> first | rfl | exact absurd (.inl (by unfold CoarseUnit; decide)) hu | exact absurd (.inr (by unfold FineUnit; decide)) hu
        simp only [e, Res.bind_err, Res.bind_eq_ok] at hr
        obtain ⟨_, -, hr⟩ := hr
        cases hr
    · cases hr
  refine Res.safe_bind_post hs fun r hr => ?_
  have := key r hr
  exact ofInterval_safe p this.1 fun _ => by unfold dayMicros; omega

/-- In a debug build `julian2date` panics on the 120296 days before day 0. -/
theorem julian2date_panics {v : Int} (h : -120296 ≤ v ∧ v ≤ -1) : julian2date .debug v = .panic := by
  have hbad : ∀ x, ¬ InU32 x → chkU32 .debug x = .panic := by
    intro x hx; unfold chkU32; rw [if_neg hx]
  have hu : wrapU32 v = v + 4294967296 := by unfold wrapU32; omega
  unfold julian2date
  by_cases h1 : -32044 ≤ v
  · rw [hbad _ (by unfold InU32; omega)]; rfl
  · rw [chkU32_ok (by omega), Res.bind_ok]
    dsimp only
    rw [hu, chkU32_ok (by omega), Res.bind_ok, chkU32_ok (by omega), Res.bind_ok, chkU32_ok (by omega), Res.bind_ok,
      chkU32_ok (by omega), Res.bind_ok, chkU32_ok (by omega), Res.bind_ok, chkU32_ok (by omega), Res.bind_ok,
      chkU32_ok (by omega), Res.bind_ok, hbad _ (by unfold InU32; omega)]
    rfl

theorem addDays_panics {t n : Int} (h : TsRange t) (hn : In32 n) (hw : -120296 ≤ targetDay t n ∧ targetDay t n ≤ -1) :
    Timestamp.addDays .debug t n = .panic := by
  rw [targetDay_eq] at hw
  obtain ⟨c, hr, hd, hy1, hy2, he⟩ := fields_spec .debug h
  have hb := real_bounds hr
  have ej := jdn_eq c
  have h' := (tsRange_iff _).1 h
  unfold Timestamp.addDays
  rw [he, Res.bind_ok]
  dsimp only [tmOf]
  rw [date2julian_eq .debug _ _ _ (by omega) (by omega) (by omega) (by omega) (by omega) (by omega) (by omega), Res.bind_ok,
    wrap32_of_in (by omega), julian2date_panics (by omega)]
  rfl

theorem week_panics {t : Timestamp} (h : TsRange t.v) (hw : 35 ≤ targetDay t.v 0 ∧ targetDay t.v 0 ≤ 37) :
    t.truncate .debug .unit .week = .panic := by
  rw [targetDay_eq] at hw
  obtain ⟨c, hr, hd, -, -, he⟩ := fields_spec .debug h
  have hc : c = ⟨-4713, 12, 29⟩ ∨ c = ⟨-4713, 12, 30⟩ ∨ c = ⟨-4713, 12, 31⟩ := by
    have e1 : dayNumber ⟨-4713, 12, 29⟩ = -2451510 := by decide
    have e2 : dayNumber ⟨-4713, 12, 30⟩ = -2451509 := by decide
    have e3 : dayNumber ⟨-4713, 12, 31⟩ = -2451508 := by decide
    have : dayNumber c = -2451510 ∨ dayNumber c = -2451509 ∨ dayNumber c = -2451508 := by omega
    rcases this with h | h | h
    · exact .inl (dayNumber_inj hr (by decide) (by omega))
    · exact .inr (.inl (dayNumber_inj hr (by decide) (by omega)))
    · exact .inr (.inr (dayNumber_inj hr (by decide) (by omega)))
  have hp : ∀ tm : PgTime, tm.year = -4714 → isoWeekToDate .debug 1 tm = .panic := by
    intro tm htm
    unfold isoWeekToDate
    rw [htm, show isoWeekToJulian .debug (-4714) 1 = .ok (-693) from by decide]
    rfl
  unfold Timestamp.truncate
  dsimp only
  rw [he, Res.bind_ok]
  unfold Timestamp.truncUnit truncTimestampWeek
  dsimp only [tmOf]
  rcases hc with rfl | rfl | rfl
  · rw [show dateToIsoWeek .debug (-4713) 12 29 = .ok 1 from by decide, Res.bind_ok, show weekYear .debug 1 12 (-4713) = .ok (-4714) from by decide, Res.bind_ok, hp _ rfl]; rfl
  · rw [show dateToIsoWeek .debug (-4713) 12 30 = .ok 1 from by decide, Res.bind_ok, show weekYear .debug 1 12 (-4713) = .ok (-4714) from by decide, Res.bind_ok, hp _ rfl]; rfl
  · rw [show dateToIsoWeek .debug (-4713) 12 31 = .ok 1 from by decide, Res.bind_ok, show weekYear .debug 1 12 (-4713) = .ok (-4714) from by decide, Res.bind_ok, hp _ rfl]; rfl

end Pg

namespace Props
open Pg Spec

/-- **C87, timestamps.** No calculation on valid timestamps (finite or infinite) panics in a release build, and
in a debug build none does apart from three cases, each an unchecked overflow: a day step that lands on one of the
120296 days before the first supported day, a difference outside 64 bits, and truncation to the week on one of three days.
Missing: nothing else; `C87_timestamp_panics` shows that each of the three does panic. -/
theorem C87_timestamp_partial (p : Profile) (t s : Timestamp) (ht : StampOk t) (hs : StampOk s) :
    (∀ a : Interval, a.WF → (p = .debug → ClearDay p t a) → t.addInterval p a ≠ .panic) ∧
    (∀ a : Interval, (p = .debug → ClearDay p t ⟨-a.month, -a.day, -a.time⟩) → t.subInterval p a ≠ .panic) ∧
    (∀ c : Time, t.addTime p c ≠ .panic ∧ t.subTime p c ≠ .panic) ∧
    ((p = .debug → TsRange t.v → TsRange s.v → In64 (t.v - s.v)) → t.subTimestamp p s ≠ .panic) ∧
    (∀ d : Date, DayOk d → (p = .debug → TsRange t.v → TsRange (d.v * dayMicros) → In64 (t.v - d.v * dayMicros)) →
      t.subDate p d ≠ .panic) ∧
    t.age p s ≠ .panic ∧
    (∀ ty u, (p = .debug → u = .week → ¬ (35 ≤ targetDay t.v 0 ∧ targetDay t.v 0 ≤ 37)) → t.truncate p ty u ≠ .panic) ∧
    (∀ ty u, t.datePart p ty u ≠ .panic) ∧ Date.ofTimestamp p t ≠ .panic ∧ Time.ofTimestamp p t ≠ .panic ∧
    (∀ junk : Bytes, junk.length = 128 → ∀ st o, t.format p junk st o ≠ .panic) := by
  refine ⟨fun a h hd => addInterval_safe p ht h.1 h.2.1 hd, fun a hd => subInterval_safe p ht hd, fun c => ⟨?_, ?_⟩,
    subTimestamp_safe p ht hs, fun d hd h => ?_, ?_, fun ty u => truncate_safe p ht ty u, datePart_safe p ht,
    (dateOf_safe p ht).1, (dateOf_safe p ht).2, fun junk hj st o => ?_⟩
  · exact addInterval_safe p ht (show In32 0 by decide) (show In32 0 by decide) fun _ => clear_noDays rfl
  · exact subInterval_safe p ht fun _ => clear_noDays (by simp [Interval.ofTime])
  · obtain ⟨h1, h2⟩ := ofDate_spec p hd
    refine Res.safe_bind_post h1 fun x hx => ?_
    obtain ⟨h3, h4⟩ := h2 x hx
    refine subTimestamp_safe p ht h3 fun hp hr1 hr2 => ?_
    have := h4 hr2
    rw [this] at hr2 ⊢
    exact h hp hr1 hr2
  · have wide : ∀ {x : Timestamp}, StampOk x → x ≠ .BEGIN → -211813488000000000 ≤ x.v ∧ x.v ≤ 9223372036854775807 := by
      rintro x (h | rfl | rfl) hb
      · rw [tsRange_iff] at h; omega
      · exact absurd rfl hb
      · decide
    by_cases h1 : t = .BEGIN
    · subst h1; exact np_err ⟨.overflow, by unfold Timestamp.age; rw [show timestamp2time p Timestamp.BEGIN.v = .err .overflow from by cases p <;> decide]; rfl⟩
    by_cases h2 : s = .BEGIN
    · subst h2
      obtain ⟨c, -, -, -, -, e⟩ := fields_wide p (wide ht h1)
      exact np_err ⟨.overflow, by
        unfold Timestamp.age
        rw [e, Res.bind_ok, show timestamp2time p Timestamp.BEGIN.v = .err .overflow from by cases p <;> decide]; rfl⟩
    rcases Int.le_total s.v t.v with hle | hle
    · obtain ⟨_, _, _, _, _, -, -, -, -, -, -, -, -, -, -, -, e, -⟩ := age_wide p t s (wide ht h1) (wide hs h2) hle
      exact np_ok e
    · obtain ⟨_, _, _, _, _, -, -, -, -, -, -, -, -, -, -, -, -, e⟩ := age_wide p s t (wide hs h2) (wide ht h1) hle
      exact np_ok e
  · rcases ht with h | rfl | rfl
    · obtain ⟨c, k, hc, hk, e⟩ := stamp_fields p h
      have := C51_timestamp p junk hj c k hc hk (by rw [e]; exact h) st o
      rw [e] at this
      exact np_ok this
    · exact np_ok (C40_output p junk st o).2.2.2
    · exact np_ok (C40_output p junk st o).2.2.1

/-- **C87, dates.** The same for dates; the exceptions in a debug build are those of the timestamp at midnight. -/
theorem C87_date_partial (p : Profile) (d e : Date) (hd : DayOk d) (he : DayOk e) :
    (∀ n, d.addDays n ≠ .panic ∧ d.subDays n ≠ .panic) ∧ d.subDate p e ≠ .panic ∧
    (∀ a : Interval, a.WF → (p = .debug → ClearDay p ⟨d.v * dayMicros⟩ a) → d.addInterval p a ≠ .panic) ∧
    (∀ a : Interval, (p = .debug → ClearDay p ⟨d.v * dayMicros⟩ ⟨-a.month, -a.day, -a.time⟩) → d.subInterval p a ≠ .panic) ∧
    (∀ c : Time, d.addTime p c ≠ .panic) ∧
    (∀ ty u, (p = .debug → u = .week → ¬ (35 ≤ d.v + 2451545 ∧ d.v + 2451545 ≤ 37)) → d.truncate p ty u ≠ .panic) ∧
    (∀ ty u, d.datePart p ty u ≠ .panic) ∧ Timestamp.ofDate p d ≠ .panic ∧
    (∀ junk : Bytes, junk.length = 128 → ∀ st o, d.format p junk st o ≠ .panic) := by
  obtain ⟨h1, h2⟩ := ofDate_spec p hd
  refine ⟨fun n => (C04_infinite_and_total d n).2, ?_, fun a h hc => ?_, fun a hc => ?_, fun c => ?_, fun ty u hw => ?_,
    fun ty u => ?_, h1, fun junk hj st o => ?_⟩
  · by_cases hf : DateRange d.v ∧ DateRange e.v
    · exact np_ok (C05_difference p d e hf.1 hf.2).1
    · refine np_err ⟨_, C05_infinite p d e ?_⟩
      rcases hd with hd | hd | hd
      · rcases he with he | he | he
        · exact absurd ⟨hd, he⟩ hf
        · exact .inr (.inr (.inl he))
        · exact .inr (.inr (.inr he))
      · exact .inl hd
      · exact .inr (.inl hd)
  · refine Res.safe_bind_post h1 fun x hx => ?_
    obtain ⟨h3, h4⟩ := h2 x hx
    refine addInterval_safe p h3 h.1 h.2.1 fun hp hr => ?_
    have hx' : x = ⟨d.v * dayMicros⟩ := by cases x; simp only at h4 hr; rw [h4 hr]
    rw [hx'] at hr ⊢
    exact hc hp hr
  · refine Res.safe_bind_post h1 fun x hx => ?_
    obtain ⟨h3, h4⟩ := h2 x hx
    refine subInterval_safe p h3 fun hp hr => ?_
    have hx' : x = ⟨d.v * dayMicros⟩ := by cases x; simp only at h4 hr; rw [h4 hr]
    rw [hx'] at hr ⊢
    exact hc hp hr
  · refine Res.safe_bind_post h1 fun x hx => Res.safe_ite ?_ (Res.safe_ok _)
    refine Res.safe_bind ?_ fun _ => Res.safe_ite (Res.safe_ok _) (Res.safe_err _)
    exact addInterval_safe p (h2 x hx).1 (show In32 0 by decide) (show In32 0 by decide) fun _ => clear_noDays rfl
  · refine Res.safe_bind_post h1 fun x hx => ?_
    obtain ⟨h3, h4⟩ := h2 x hx
    refine Res.safe_bind_post (truncate_safe p h3 ty u fun hp hu => ?_) fun y hy => (dateOf_safe p (.inl (truncate_valid hy))).1
    have := hw hp hu
    rw [targetDay_eq]
    rcases h3 with h | rfl | rfl
    · have := h4 h; unfold dayMicros at this; omega
    · unfold Timestamp.BEGIN; simp
    · unfold Timestamp.END; simp
  · exact Res.safe_bind_post h1 fun x hx => datePart_safe p (h2 x hx).1 ty u
  · rcases hd with h | rfl | rfl
    · obtain ⟨c, -, -, e⟩ := date_format_eq p junk hj d h st o
      exact np_ok e
    · exact np_ok (C40_output p junk st o).2.1
    · exact np_ok (C40_output p junk st o).1

/-- **C87, times.** No calculation on times of day (24:00 included) panics, in any build. -/
theorem C87_time (p : Profile) (t s : Time) (ht : ClockOk t) :
    (∀ a : Interval, t.addInterval p a ≠ .panic ∧ t.subInterval p a ≠ .panic) ∧
    t.addInterval p (t.subTime s) ≠ .panic ∧
    (∀ ty u, t.truncate p ty u ≠ .panic) ∧ (∀ ty u, t.datePart p ty u ≠ .panic) ∧
    (∀ junk : Bytes, junk.length = 128 → ∀ st, t.format p junk st ≠ .panic) := by
  have hc := fun a => C20_total p t a
  refine ⟨fun a => ⟨?_, ?_⟩, ?_, timeTruncate_safe p ht, fun ty u => ?_, fun junk hj st => ?_⟩
  · obtain ⟨⟨r, e, -⟩, -⟩ := hc a; exact np_ok e
  · obtain ⟨-, ⟨r, e, -⟩⟩ := hc a; exact np_ok e
  · obtain ⟨⟨r, e, -⟩, -⟩ := hc (t.subTime s); exact np_ok e
  · cases ty
    · obtain ⟨⟨_, _, _, _, _, f1, f2, f3, f4, f5, -⟩, h2⟩ := C54_time p t ht.1 ht.2
      cases u
      case hour => exact np_ok f1
      case minute => exact np_ok f2
      case microsec => exact np_ok f3
      case second => exact np_ok f4
      case millisec => exact np_ok f5
      all_goals exact np_err ⟨_, h2 _ (by simp) (by simp) (by simp) (by simp) (by simp)⟩
    · unfold Time.datePart
      exact Res.safe_ite (Res.safe_ok _) (Res.safe_err _)
  · unfold ClockOk dayMicros at ht
    by_cases h24 : t.v = 86400000000
    · have := C51_time p junk hj ⟨24, 0, 0, 0⟩ (.inr rfl) st
      have e : t = ⟨(⟨24, 0, 0, 0⟩ : Clock).micros⟩ := by cases t; simp only at h24; rw [h24]; rfl
      rw [e]; exact np_ok this
    · have := C51_time p junk hj (clockOf t.v) (.inl (clockOf_real _)) st
      have e : t = ⟨(clockOf t.v).micros⟩ := by
        cases t; simp only at h24 ht ⊢; rw [clockOf_micros]; congr 1; omega
      rw [e]; exact np_ok this

/-- **C87, intervals.** Adding, subtracting and negating intervals, justifying them, taking their fields and
multiplying or dividing them in a release build never panic. Missing: truncation to an hour or less, printing, scaling in
a debug build and the conversion to a time have the hypotheses shown, outside which they can panic. -/
theorem C87_interval_partial (p : Profile) (a b : Interval) (ha : a.WF) :
    a.addInterval b ≠ .panic ∧ a.subInterval b ≠ .panic ∧ a.negate ≠ .panic ∧
    a.justifyHours p ≠ .panic ∧ a.justifyDays p ≠ .panic ∧ a.justifyInterval p ≠ .panic ∧
    (∀ ty u, (FineUnit u → In32 (Int.tdiv a.time 3600000000) → In32 (Int.tdiv a.time 60000000)) →
      a.truncate p ty u ≠ .panic) ∧
    (∀ ty u, a.datePart p ty u ≠ .panic) ∧
    ((p = .debug → -(9223372036854775807 - dayMicros) ≤ a.time) → Time.ofInterval p a ≠ .panic) ∧
    (∀ q : Rat, (p = .debug → |(a.month : Rat) * q| ≤ 2147483640 ∧ |(a.day : Rat) * q| ≤ 2147483600 ∧
      |(a.time : Rat) * q| ≤ 4611686018427387904) → a.mulF64 p (.fin q) ≠ .panic) ∧
    (∀ q : Rat, (p = .debug → |(a.month : Rat) / q| ≤ 2147483640 ∧ |(a.day : Rat) / q| ≤ 2147483600 ∧
      |(a.time : Rat) / q| ≤ 4611686018427387904) → a.divF64 p (.fin q) ≠ .panic) ∧
    (∀ junk : Bytes, junk.length = 128 → ∀ st, (HoursFit a.time → a.day ≠ -2147483648 ∧
      -2147483648 * 3600000000 < a.time) → a.format p junk st ≠ .panic) := by
  obtain ⟨e1, e2, e3⟩ := C15_exact_or_overflow a b
  refine ⟨?_, ?_, ?_, C16_no_panic p a ha, C17_no_panic p a ha, C18_no_panic p a ha, intervalTruncate_safe p ha,
    intervalPart_safe p ha, ofInterval_safe p ha.2.2, fun q hq => ?_, fun q hq => ?_, fun junk hj st h => ?_⟩
  · rw [e1]; exact Res.safe_ite (Res.safe_ok _) (Res.safe_err _)
  · rw [e2]; exact Res.safe_ite (Res.safe_ok _) (Res.safe_err _)
  · rw [e3]; exact Res.safe_ite (Res.safe_ok _) (Res.safe_err _)
  · cases p
    · obtain ⟨h1, h2, h3⟩ := hq rfl
      obtain ⟨r, e, -⟩ := C47_mul_length_partial .debug a ha q h1 h2 h3
      exact np_ok e
    · exact (C47_release_no_panic a _).1
  · cases p
    · obtain ⟨h1, h2, h3⟩ := hq rfl
      by_cases h0 : q = 0
      · subst h0; exact np_err ⟨_, C47_div_zero .debug a⟩
      · obtain ⟨r, e, -⟩ := C47_div_length_partial .debug a ha q h0 h1 h2 h3
        exact np_ok e
    · exact (C47_release_no_panic a _).2
  · by_cases hf : HoursFit a.time
    · exact np_ok (C52_text p a ha hf (h hf).1 (h hf).2 st junk hj)
    · unfold Interval.format
      rw [toPgtime_eq p ha.2.2, if_neg fun hx => hf ((hoursFit_iff _).2 hx)]
      exact Res.safe_err _

/-- **C87, violation.** The exceptions of `C87_timestamp_partial` do panic in a debug build, every one of them: the days
before the first supported day, the differences outside 64 bits and the weeks of the last three days of December 4714 BC. -/
theorem C87_timestamp_panics (t s : Timestamp) (ht : TsRange t.v) (hs : TsRange s.v) :
    (∀ a : Interval, a.WF → (t.addInterval .debug a = .panic ↔ ¬ ClearDay .debug t a)) ∧
    (t.subTimestamp .debug s = .panic ↔ ¬ In64 (t.v - s.v)) ∧
    (t.truncate .debug .unit .week = .panic ↔ 35 ≤ targetDay t.v 0 ∧ targetDay t.v 0 ≤ 37) := by
  refine ⟨fun a h => ⟨fun hp hc => addInterval_safe .debug (.inl ht) h.1 h.2.1 (fun _ => hc) hp, fun hc => ?_⟩,
    ⟨fun hp hc => subTimestamp_safe .debug (.inl ht) (.inl hs) (fun _ _ _ => hc) hp, fun hc => ?_⟩,
    ⟨fun hp => ?_, week_panics ht⟩⟩
  · unfold ClearDay at hc
    simp only [not_forall, not_not] at hc
    obtain ⟨-, r, hr, hw⟩ := hc
    have hv : TsRange r.v := by
      rcases C12_ok_valid .debug t r _ hr with hv | ⟨hi, he⟩
      · exact hv
      · rw [notInf ht] at hi; cases hi
    rw [addInterval_finite .debug ht] at hr ⊢
    simp only [Timestamp.dayStep, ne_eq, not_true_eq_false, if_false, Res.bind_eq_ok, Res.bind_ok] at hr
    obtain ⟨x, hx, hr⟩ := hr
    have hxv := monthStep_valid ht hx
    rw [wrap64_valid hxv, if_pos ((isValidTimestamp_iff _).2 hxv)] at hr
    injection hr with hr
    subst hr
    rw [hx, Res.bind_ok]
    unfold Timestamp.dayStep
    have h0 : a.day ≠ 0 := by
      intro h0
      rw [targetDay_eq, h0] at hw
      rw [tsRange_iff] at hxv
      simp only at hw
      omega
    rw [if_pos h0, addDays_panics hxv h.2.1 hw]
    rfl
  · unfold Timestamp.subTimestamp
    rw [notInf ht, notInf hs]
    simp only [Bool.or_self, Bool.false_eq_true, if_false]
    unfold chk64
    rw [if_neg hc]
    rfl
  · by_contra hc
    exact week_safe .debug ht (fun _ => hc) hp

/-- Such timestamps: the first supported midnight less a day, the last timestamp less the first one, and the noon of
29 December 4714 BC; in a release build the last is an error. -/
example : ¬ ClearDay .debug ⟨-211813488000000000⟩ ⟨0, -1, 0⟩ ∧
    ¬ In64 (9223371331199999999 - -211813488000000000) ∧
    (⟨instant ⟨-4713, 12, 29⟩ ⟨12, 0, 0, 0⟩⟩ : Timestamp).truncate .debug .unit .week = .panic ∧
    (⟨instant ⟨-4713, 12, 29⟩ ⟨12, 0, 0, 0⟩⟩ : Timestamp).truncate .release .unit .week = .err .invalid := by
  refine ⟨fun h => ?_, by decide, by decide, by decide⟩
  exact h (by decide) ⟨-211813488000000000⟩ (by decide) (by decide)

/-- **C87, violation.** `Time::try_from` of an interval panics in a debug build for every interval of less than
`24 hours - i64::MAX` microseconds, and `Interval + Interval` panics in every build when a field overflows. -/
theorem C87_interval_panics (a b : Interval) (ha : a.WF) :
    (Time.ofInterval .debug a = .panic ↔ a.time < -(9223372036854775807 - dayMicros)) ∧
    (a.add b = .panic ↔ ¬ (In32 (a.month + b.month) ∧ In32 (a.day + b.day) ∧ In64 (a.time + b.time))) := by
  obtain ⟨hm, hd, ht⟩ := ha
  refine ⟨⟨fun hp => ?_, fun hlt => ?_⟩, ?_⟩
  · by_contra hc
    exact ofInterval_safe .debug ht (fun _ => by omega) hp
  · have hbad : ∀ x, ¬ In64 x → chk64 .debug x = .panic := by
      intro x hx; unfold chk64; rw [if_neg hx]
    unfold dayMicros at hlt
    unfold Time.ofInterval
    rw [if_neg (by omega), if_pos (by omega)]
    by_cases hmin : a.time = -9223372036854775808
    · rw [hbad _ (by unfold In64; omega)]; rfl
    · unfold In64 at ht
      rw [chk64_ok (by omega), Res.bind_ok, hbad _ (by unfold In64; omega)]; rfl
  · unfold Interval.add
    rw [(C15_exact_or_overflow a b).1]
    by_cases h : In32 (a.month + b.month) ∧ In32 (a.day + b.day) ∧ In64 (a.time + b.time)
    · rw [if_pos h]; simp [h]
    · rw [if_neg h]; simp [h]

example : (⟨0, 0, -9223372036854775808⟩ : Interval).WF ∧ (⟨2147483647, 0, 0⟩ : Interval).add ⟨1, 0, 0⟩ = .panic ∧
    (⟨3, 4, 5⟩ : Interval).add ⟨1, 0, 0⟩ = .ok ⟨4, 4, 5⟩ := by decide

/-- Values meeting the hypotheses, in a debug build. -/
example : StampOk ⟨0⟩ ∧ StampOk Timestamp.END ∧ DayOk ⟨-2451545⟩ ∧ ClockOk ⟨86400000000⟩ ∧
    (⟨-14, 40, -3723123456⟩ : Interval).WF ∧ ClearDay .debug ⟨0⟩ ⟨-14, 40, -3723123456⟩ := by
  refine ⟨.inl (by decide), .inr (.inr rfl), .inl (by decide), by unfold ClockOk; decide, by decide, fun _ r hr => ?_⟩
  have : (⟨0⟩ : Timestamp).addInterval .debug ⟨-14, 0, 0⟩ = .ok ⟨dayNumber ⟨1998, 11, 1⟩ * dayMicros⟩ := by decide
  rw [this] at hr
  injection hr with hr
  subst hr
  decide

end Props
