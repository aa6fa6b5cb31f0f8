import Verif.Lemmas.Date

/-!
# Properties C06, C07, C08, C49: conversions between `Date`, `Time`, `Timestamp` and integers
-/

namespace Props
open Pg Spec

/-- Day number of a timestamp's date part, as computed by `TryFrom<Timestamp> for Date`. -/
theorem ofTimestamp_eq (p : Profile) (t : Timestamp) (h : TsRange t.v) :
    Date.ofTimestamp p t = .ok ⟨t.v / dayMicros⟩ := by
  have h' := (tsRange_iff _).1 h
  obtain ⟨c, hr, hn, he⟩ := timestamp2time_spec p t.v (by omega) (by omega)
  have hb := real_bounds hr
  have hv := isValidJulian_of_range hr (by omega) (by omega)
  have hv' := (isValidJulian_iff _ _).1 hv
  unfold Date.ofTimestamp
  rw [if_neg (by omega), if_neg (by omega), he]
  simp only [Res.bind_ok, tmOf]
  rw [date2julian_eq p _ _ _ (by omega) (by omega) (by omega) (by omega) (by omega) (by omega)
      (by omega)]
  have e := jdn_eq c
  simp only [Res.bind_ok]
  rw [chk32_ok (by omega)]
  simp only [Res.bind_ok, Res.pure_eq, Res.ok.injEq, Date.mk.injEq]
  unfold dayMicros; omega

theorem timeOfTimestamp_eq (p : Profile) (t : Timestamp) (h : TsRange t.v) :
    Time.ofTimestamp p t = .ok (some ⟨t.v % dayMicros⟩) := by
  have h' := (tsRange_iff _).1 h
  obtain ⟨c, hr, hn, he⟩ := timestamp2time_spec p t.v (by omega) (by omega)
  have hi : t.isInfinite = false := by unfold Timestamp.isInfinite; simp; omega
  unfold Time.ofTimestamp
  rw [hi, he]
  simp only [Bool.false_eq_true, if_false, Res.bind_ok, tmOf, clockOf]
  simp (disch := omega) only [chk32_ok, chk64_ok, Res.bind_ok, Res.pure_eq]
  simp only [Res.ok.injEq, Option.some.injEq, Time.mk.injEq]
  unfold dayMicros; omega

/-- **C06.** A valid finite date converts to midnight of that day exactly when it is before
294277-01-01 (otherwise an error), and converting back gives the date. -/
theorem C06_date_to_timestamp (p : Profile) (d : Date) (h : DateRange d.v) :
    (d.v < dayNumber ⟨294277, 1, 1⟩ →
      Timestamp.ofDate p d = .ok ⟨d.v * dayMicros⟩ ∧ TsRange (d.v * dayMicros) ∧
      Date.ofTimestamp p ⟨d.v * dayMicros⟩ = .ok d) ∧
    (¬ d.v < dayNumber ⟨294277, 1, 1⟩ → (Timestamp.ofDate p d).IsErr) := by
  have h' := (dateRange_iff _).1 h
  rw [show dayNumber ⟨294277, 1, 1⟩ = 106751983 from by decide]
  constructor
  · intro hlt
    have hr : TsRange (d.v * dayMicros) := by rw [tsRange_iff]; unfold dayMicros; omega
    refine ⟨?_, hr, ?_⟩
    · unfold Timestamp.ofDate dayMicros
      rw [if_neg (by omega), if_neg (by omega), if_neg (by omega), chk64_ok (by omega)]; rfl
    · rw [ofTimestamp_eq p ⟨_⟩ hr]
      simp only [show d.v * dayMicros / dayMicros = d.v from by unfold dayMicros; omega]
  · intro hge
    unfold Timestamp.ofDate
    rw [if_neg (by omega), if_neg (by omega), if_pos (by omega)]
    exact ⟨_, rfl⟩

/-- **C06.** The instant produced is midnight of the day with the date's fields. -/
theorem C06_is_midnight (p : Profile) (d : Date) (t : Timestamp) (h : DateRange d.v)
    (ht : Timestamp.ofDate p d = .ok t) :
    ∃ y m dd, d.fields p = .ok (y, m, dd) ∧ t.v = instant ⟨y, m, dd⟩ ⟨0, 0, 0, 0⟩ := by
  have h' := (dateRange_iff _).1 h
  obtain ⟨y, m, dd, he, hj, hreal⟩ := julian2date_spec p (d.v + 2451545) (by omega) (by omega)
  refine ⟨y, m, dd, ?_, ?_⟩
  · unfold Date.fields; rw [chk32_ok (by omega)]; exact he
  · have hn : dayNumber ⟨y, m, dd⟩ = d.v := by unfold jdn at hj; omega
    have := C06_date_to_timestamp p d h
    by_cases hc : d.v < dayNumber ⟨294277, 1, 1⟩
    · rw [(this.1 hc).1] at ht
      injection ht with ht; subst ht
      unfold instant; rw [hn]; simp [Clock.micros]
    · obtain ⟨e, he⟩ := this.2 hc; rw [he] at ht; cases ht

/-- **C06.** Both infinities are preserved, in both directions. -/
theorem C06_infinities (p : Profile) :
    Timestamp.ofDate p Date.BEGIN = .ok Timestamp.BEGIN ∧
    Timestamp.ofDate p Date.END = .ok Timestamp.END ∧
    Date.ofTimestamp p Timestamp.BEGIN = .ok Date.BEGIN ∧
    Date.ofTimestamp p Timestamp.END = .ok Date.END := by
  refine ⟨rfl, rfl, rfl, rfl⟩

/-- **C06.** Conversion is strictly monotone, infinities included. -/
theorem C06_monotone (p : Profile) (a b : Date) (s t : Timestamp)
    (ha : DateRange a.v ∨ a = Date.BEGIN ∨ a = Date.END)
    (hb : DateRange b.v ∨ b = Date.BEGIN ∨ b = Date.END)
    (hs : Timestamp.ofDate p a = .ok s) (ht : Timestamp.ofDate p b = .ok t) :
    a.v < b.v ↔ s.v < t.v := by
  have key : ∀ (d : Date) (u : Timestamp), (DateRange d.v ∨ d = Date.BEGIN ∨ d = Date.END) →
      Timestamp.ofDate p d = .ok u →
      (d.v = -2147483648 ∧ u.v = -9223372036854775808) ∨
      (d.v = 2147483647 ∧ u.v = 9223372036854775807) ∨
      (-2451545 ≤ d.v ∧ d.v < 106751983 ∧ u.v = d.v * 86400000000) := by
    intro d u hd hu
    rcases hd with hd | rfl | rfl
    · have := C06_date_to_timestamp p d hd
      rw [show dayNumber ⟨294277, 1, 1⟩ = 106751983 from by decide] at this
      by_cases hc : d.v < 106751983
      · rw [(this.1 hc).1] at hu
        injection hu with hu; subst hu
        have := (dateRange_iff _).1 hd
        exact .inr (.inr ⟨by omega, hc, rfl⟩)
      · obtain ⟨e, he⟩ := this.2 hc; rw [he] at hu; cases hu
    · injection hu with hu; subst hu; exact .inl ⟨rfl, rfl⟩
    · injection hu with hu; subst hu; exact .inr (.inl ⟨rfl, rfl⟩)
  have k1 := key a s ha hs
  have k2 := key b t hb ht
  omega

example : DateRange 106751982 ∧ Timestamp.ofDate .debug ⟨106751982⟩ = .ok ⟨9223371244800000000⟩ ∧
    Timestamp.ofDate .debug ⟨106751983⟩ = .err .overflow := by decide

/-- **C07.** A valid timestamp splits into the day containing it and a time of day below 24:00,
and adding them gives the timestamp back. -/
theorem C07_split_join (p : Profile) (t : Timestamp) (h : TsRange t.v) :
    ∃ d u, Date.ofTimestamp p t = .ok d ∧ Time.ofTimestamp p t = .ok (some u) ∧
      d.v * dayMicros ≤ t.v ∧ t.v < (d.v + 1) * dayMicros ∧
      0 ≤ u.v ∧ u.v < dayMicros ∧ d.addTime p u = .ok t := by
  have h' := (tsRange_iff _).1 h
  refine ⟨_, _, ofTimestamp_eq p t h, timeOfTimestamp_eq p t h, ?_, ?_, ?_, ?_, ?_⟩
  · unfold dayMicros; simp only; omega
  · unfold dayMicros; simp only; omega
  · unfold dayMicros; simp only; omega
  · unfold dayMicros; simp only; omega
  · unfold Date.addTime
    have hd : DateRange (t.v / dayMicros) := by
      rw [dateRange_iff]; unfold dayMicros; omega
    have h1 := (C06_date_to_timestamp p ⟨t.v / dayMicros⟩ hd).1
      (by rw [show dayNumber ⟨294277, 1, 1⟩ = 106751983 from by decide]; unfold dayMicros; simp only; omega)
    rw [h1.1]
    have hi : (⟨t.v / dayMicros * dayMicros⟩ : Timestamp).isInfinite = false := by
      unfold Timestamp.isInfinite dayMicros; simp; omega
    simp only [Res.bind_ok, hi, Bool.false_eq_true, not_false_eq_true, if_true]
    unfold Timestamp.addTime Timestamp.addInterval Interval.ofTime Timestamp.monthStep
      Timestamp.dayStep
    rw [hi]
    simp only [Bool.false_eq_true, if_false, ne_eq, not_true_eq_false, Res.bind_ok]
    have e : t.v / dayMicros * dayMicros + t.v % dayMicros = t.v := by unfold dayMicros; omega
    have hv := (isValidTimestamp_iff _).2 h
    rw [e, wrap64_of_in (by omega), if_pos hv]
    simp only [Res.bind_ok, hv, if_true]

/-- **C07.** Infinite timestamps convert to the infinite date of the same sign and to no time. -/
theorem C07_infinite (p : Profile) :
    Date.ofTimestamp p Timestamp.BEGIN = .ok Date.BEGIN ∧
    Date.ofTimestamp p Timestamp.END = .ok Date.END ∧
    Time.ofTimestamp p Timestamp.BEGIN = .ok none ∧
    Time.ofTimestamp p Timestamp.END = .ok none := ⟨rfl, rfl, rfl, rfl⟩

example : TsRange (-1) ∧ Date.ofTimestamp .debug ⟨-1⟩ = .ok ⟨-1⟩ ∧
    Time.ofTimestamp .debug ⟨-1⟩ = .ok (some ⟨86399999999⟩) ∧
    (⟨-1⟩ : Date).addTime .debug ⟨86399999999⟩ = .ok ⟨-1⟩ := by decide

/-- **C08.** The fields of a valid timestamp are a real calendar day and a real clock reading,
they name exactly that instant, and recombining them gives the timestamp back. -/
theorem C08_fields (p : Profile) (t : Int) (h : TsRange t) :
    ∃ tm us, timestamp2time p t = .ok (tm, us) ∧
      (⟨tm.year, tm.mon, tm.mday⟩ : YMD).Real ∧
      (⟨tm.hour, tm.min, tm.sec, us⟩ : Clock).Real ∧
      instant ⟨tm.year, tm.mon, tm.mday⟩ ⟨tm.hour, tm.min, tm.sec, us⟩ = t ∧
      tm.toTimestamp p us = .ok t := by
  have h' := (tsRange_iff _).1 h
  obtain ⟨c, hr, hn, he⟩ := timestamp2time_spec p t (by omega) (by omega)
  have hc := clockOf_real t
  have hi := instant_fields hn
  refine ⟨_, _, he, hr, hc, hi, ?_⟩
  have hb := real_bounds hr
  have hv := isValidJulian_of_range hr (by omega) (by omega)
  obtain ⟨c1, c2, c3, c4, c5, c6, c7, c8⟩ := hc
  have := (toTimestamp_eq p (tmOf c (clockOf t)) (clockOf t).us ⟨hb.1, hb.2.1⟩ hb.2.2 hv
    (by simp only [tmOf]; omega) (by simp only [tmOf]; omega) (by simp only [tmOf]; omega)
    (by omega)).1
  simp only [tmOf] at this ⊢
  rw [show instant ⟨c.y, c.m, c.d⟩ ⟨(clockOf t).h, (clockOf t).mi, (clockOf t).s, (clockOf t).us⟩ = t
    from hi] at this
  exact this h

theorem micros_bounds {t : Clock} (h : t.Real) : 0 ≤ t.micros ∧ t.micros < 86400000000 := by
  unfold Clock.Real at h; unfold Clock.micros; omega

theorem micros_lt_iff {a b : Clock} (ha : a.Real) (hb : b.Real) : a.micros < b.micros ↔ a.lt b := by
  unfold Clock.Real at ha hb; unfold Clock.micros Clock.lt; omega

theorem instant_lt_iff {c c' : YMD} {t t' : Clock} (hc : c.Real) (hc' : c'.Real) (ht : t.Real)
    (ht' : t'.Real) : instant c t < instant c' t' ↔ dtLt c t c' t' := by
  have b1 := micros_bounds ht
  have b2 := micros_bounds ht'
  have m1 := micros_lt_iff ht ht'
  have d1 := dayNumber_lt_iff hc hc'
  unfold instant dtLt dayMicros
  rw [← d1, ← m1]
  constructor
  · intro h
    by_cases he : dayNumber c = dayNumber c'
    · exact .inr ⟨dayNumber_inj hc hc' he, by omega⟩
    · exact .inl (by omega)
  · rintro (h | ⟨rfl, h⟩) <;> omega

/-- **C08.** Fields compare (day first, then clock) exactly as the timestamps do; in particular
equal fields mean equal timestamps. -/
theorem C08_order (p : Profile) (s t : Int) (hs : TsRange s) (ht : TsRange t)
    (a b : PgTime) (u v : Int) (ha : timestamp2time p s = .ok (a, u))
    (hb : timestamp2time p t = .ok (b, v)) :
    (s < t ↔ dtLt ⟨a.year, a.mon, a.mday⟩ ⟨a.hour, a.min, a.sec, u⟩
                 ⟨b.year, b.mon, b.mday⟩ ⟨b.hour, b.min, b.sec, v⟩) ∧
    (a = b ∧ u = v ↔ s = t) := by
  obtain ⟨a', u', ha', ra, ca, ia, -⟩ := C08_fields p s hs
  obtain ⟨b', v', hb', rb, cb, ib, -⟩ := C08_fields p t ht
  rw [ha] at ha'; rw [hb] at hb'
  injection ha' with ha'; injection hb' with hb'
  simp only [Prod.mk.injEq] at ha' hb'
  obtain ⟨rfl, rfl⟩ := ha'
  obtain ⟨rfl, rfl⟩ := hb'
  refine ⟨?_, ?_, ?_⟩
  · rw [← instant_lt_iff ra rb ca cb, ia, ib]
  · rintro ⟨rfl, rfl⟩; omega
  · rintro rfl; rw [ha] at hb; simpa using hb

example : TsRange (-1) ∧ timestamp2time .debug (-1) =
    .ok ({ PgTime.new with year := 1999, mon := 12, mday := 31, hour := 23, min := 59, sec := 59 },
      999999) := by decide

/-- **C49.** Integer conversions are mutually inverse and comparison is integer comparison. -/
theorem C49_conversions (v : Int) (d : Date) (t : Time) (s : Timestamp) :
    (Date.ofI32 v).toI32 = v ∧ Date.ofI32 d.toI32 = d ∧ (Time.ofI64 v).toI64 = v ∧
    Time.ofI64 t.toI64 = t ∧ (Timestamp.ofI64 v).toI64 = v ∧ Timestamp.ofI64 s.toI64 = s :=
  ⟨rfl, rfl, rfl, rfl, rfl, rfl⟩

/-- **C49.** Comparing dates is calendar order; comparing timestamps is chronological order. -/
theorem C49_chronological (p : Profile) :
    (∀ (a b : Date) (y m d y' m' d' : Int), DateRange a.v → DateRange b.v →
      a.fields p = .ok (y, m, d) → b.fields p = .ok (y', m', d') →
      (a.cmp b = .lt ↔ (⟨y, m, d⟩ : YMD).lt ⟨y', m', d'⟩)) ∧
    (∀ (s t : Timestamp) (a b : PgTime) (u v : Int), TsRange s.v → TsRange t.v →
      timestamp2time p s.v = .ok (a, u) → timestamp2time p t.v = .ok (b, v) →
      (s.cmp t = .lt ↔ dtLt ⟨a.year, a.mon, a.mday⟩ ⟨a.hour, a.min, a.sec, u⟩
                 ⟨b.year, b.mon, b.mday⟩ ⟨b.hour, b.min, b.sec, v⟩)) := by
  constructor
  · intro a b y m d y' m' d' ha hb fa fb
    have ha' := (dateRange_iff _).1 ha
    have hb' := (dateRange_iff _).1 hb
    obtain ⟨y1, m1, d1, e1, j1, r1⟩ := julian2date_spec p (a.v + 2451545) (by omega) (by omega)
    obtain ⟨y2, m2, d2, e2, j2, r2⟩ := julian2date_spec p (b.v + 2451545) (by omega) (by omega)
    unfold Date.fields at fa fb
    rw [chk32_ok (by omega)] at fa fb
    simp only [Res.bind_ok] at fa fb
    rw [e1] at fa; rw [e2] at fb
    injection fa with fa; injection fb with fb
    simp only [Prod.mk.injEq] at fa fb
    obtain ⟨rfl, rfl, rfl⟩ := fa
    obtain ⟨rfl, rfl, rfl⟩ := fb
    rw [← dayNumber_lt_iff r1 r2]
    unfold Date.cmp
    rw [Int.compare_eq_lt]
    unfold jdn at j1 j2
    omega
  · intro s t a b u v hs ht fa fb
    rw [← (C08_order p s.v t.v hs ht a b u v fa fb).1]
    unfold Timestamp.cmp
    rw [Int.compare_eq_lt]

/-- **C49.** The infinities are below and above every finite valid value, and no valid finite value
is an infinity. -/
theorem C49_infinities (d : Date) (t : Timestamp) (hd : DateRange d.v) (ht : TsRange t.v) :
    Date.BEGIN.cmp d = .lt ∧ d.cmp Date.END = .lt ∧
    Timestamp.BEGIN.cmp t = .lt ∧ t.cmp Timestamp.END = .lt ∧
    d.isInfinite = false ∧ t.isInfinite = false := by
  have hd' := (dateRange_iff _).1 hd
  have ht' := (tsRange_iff _).1 ht
  unfold Date.cmp Timestamp.cmp Date.BEGIN Date.END Timestamp.BEGIN Timestamp.END
  simp only [Int.compare_eq_lt]
  refine ⟨by omega, by omega, by omega, by omega, ?_, ?_⟩
  · unfold Date.isInfinite; simp; omega
  · unfold Timestamp.isInfinite; simp; omega

end Props
