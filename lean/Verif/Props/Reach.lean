import Verif.Props.NoPanicCalc
import Verif.Props.ParsedRange
import Verif.Props.Construct
import Verif.Lemmas.Date

/-!
# C89: which values a sequence of operations can make
-/

namespace Pg
open Spec Props

/-- A value of one of the three types with a range. -/
inductive Val where
  | date (d : Date)
  | time (t : Time)
  | stamp (t : Timestamp)

/-- The values a program can make without the raw conversions from integers: every public constant, constructor and
method of `Date`, `Time` and `Timestamp` that gives one of them. Intervals and numbers are arbitrary. -/
inductive Made (p : Profile) : Val → Prop
  | dateBegin : Made p (.date Date.BEGIN)
  | dateEnd : Made p (.date Date.END)
  | ymd {y m d : Int} {r : Date} (hy : In32 y) (h : Date.tryFromYmd p y m d = .ok r) : Made p (.date r)
  | dateText {u : TokenField} {c : Caches} {s : Bytes} {o : DateOrder} {r : Date}
      (h : Date.tryFromStr p u c s o = .ok r) : Made p (.date r)
  | addDays {d r : Date} {n : Int} (hd : Made p (.date d)) (h : d.addDays n = .ok r) : Made p (.date r)
  | subDays {d r : Date} {n : Int} (hd : Made p (.date d)) (h : d.subDays n = .ok r) : Made p (.date r)
  | dateOf {t : Timestamp} {r : Date} (ht : Made p (.stamp t)) (h : Date.ofTimestamp p t = .ok r) : Made p (.date r)
  | dateTrunc {d r : Date} {ty : FieldType} {u : DateUnit} (hd : Made p (.date d)) (h : d.truncate p ty u = .ok r) :
      Made p (.date r)
  | midnight : Made p (.time ⟨0⟩)
  | hms {h m : Int} {s : F64} {r : Time} (e : Time.tryFromHms p h m s = .ok r) : Made p (.time r)
  | timeText {u : TokenField} {c : Caches} {s : Bytes} {typmod : Int} {o : DateOrder} {r : Time}
      (h : Time.tryFromStr p u c s typmod o = .ok r) : Made p (.time r)
  | timeAdd {t r : Time} {a : Interval} (ht : Made p (.time t)) (h : t.addInterval p a = .ok r) : Made p (.time r)
  | timeSub {t r : Time} {a : Interval} (ht : Made p (.time t)) (h : t.subInterval p a = .ok r) : Made p (.time r)
  | timeOf {t : Timestamp} {r : Time} (ht : Made p (.stamp t)) (h : Time.ofTimestamp p t = .ok (some r)) :
      Made p (.time r)
  | timeOfSpan {a : Interval} {r : Time} (ha : a.WF) (h : Time.ofInterval p a = .ok r) : Made p (.time r)
  | timeTrunc {t r : Time} {ty : FieldType} {u : DateUnit} (ht : Made p (.time t)) (h : t.truncate p ty u = .ok r) :
      Made p (.time r)
  | stampBegin : Made p (.stamp Timestamp.BEGIN)
  | stampEnd : Made p (.stamp Timestamp.END)
  | ymdHms {y mo d h mi : Int} {s : F64} {r : Timestamp} (e : Timestamp.tryFromYmdHms p y mo d h mi s = .ok r) :
      Made p (.stamp r)
  | stampText {u : TokenField} {c : Caches} {s : Bytes} {typmod : Int} {o : DateOrder} {r : Timestamp}
      (h : Timestamp.tryFromStr p u c s typmod o = .ok r) : Made p (.stamp r)
  | stampOf {d : Date} {r : Timestamp} (hd : Made p (.date d)) (h : Timestamp.ofDate p d = .ok r) : Made p (.stamp r)
  | stampAdd {t r : Timestamp} {a : Interval} (ht : Made p (.stamp t)) (h : t.addInterval p a = .ok r) : Made p (.stamp r)
  | stampSub {t r : Timestamp} {a : Interval} (ht : Made p (.stamp t)) (h : t.subInterval p a = .ok r) : Made p (.stamp r)
  | stampAddTime {t r : Timestamp} {c : Time} (ht : Made p (.stamp t)) (hc : Made p (.time c))
      (h : t.addTime p c = .ok r) : Made p (.stamp r)
  | stampSubTime {t r : Timestamp} {c : Time} (ht : Made p (.stamp t)) (hc : Made p (.time c))
      (h : t.subTime p c = .ok r) : Made p (.stamp r)
  | stampTrunc {t r : Timestamp} {ty : FieldType} {u : DateUnit} (ht : Made p (.stamp t)) (h : t.truncate p ty u = .ok r) :
      Made p (.stamp r)
  | dateAdd {d : Date} {r : Timestamp} {a : Interval} (hd : Made p (.date d)) (h : d.addInterval p a = .ok r) :
      Made p (.stamp r)
  | dateSub {d : Date} {r : Timestamp} {a : Interval} (hd : Made p (.date d)) (h : d.subInterval p a = .ok r) :
      Made p (.stamp r)
  | dateAddTime {d : Date} {r : Timestamp} {c : Time} (hd : Made p (.date d)) (hc : Made p (.time c))
      (h : d.addTime p c = .ok r) : Made p (.stamp r)

/-- The first microsecond after the supported timestamps: the midnight after 31 December 294276. -/
def justAfter : Int := instant lastTsDay.next ⟨0, 0, 0, 0⟩

/-- The latest time of day a build can make. -/
def latestTime : Profile → Int
  | .debug => 24 * 3600000000 + 1000000
  | .release => 48 * 3600000000 - 2

/-- The ranges. -/
def Val.InBounds (p : Profile) : Val → Prop
  | .date d => DateRange d.v ∨ d = Date.BEGIN ∨ d = Date.END
  | .time t => 0 ≤ t.v ∧ t.v ≤ latestTime p
  | .stamp t => TsRange t.v ∨ t.v = justAfter ∨ t = Timestamp.BEGIN ∨ t = Timestamp.END

theorem justAfter_eq : justAfter = 9223371331200000000 := by decide

theorem dateOf_bounds {p : Profile} {t : Timestamp} {r : Date}
    (ht : TsRange t.v ∨ t.v = justAfter ∨ t = Timestamp.BEGIN ∨ t = Timestamp.END) (h : Date.ofTimestamp p t = .ok r) :
    DateRange r.v ∨ r = Date.BEGIN ∨ r = Date.END := by
  by_cases h1 : t.v = -9223372036854775808
  · unfold Date.ofTimestamp at h
    rw [if_pos h1] at h
    injection h with h
    exact .inr (.inl h.symm)
  · by_cases h2 : t.v = 9223372036854775807
    · unfold Date.ofTimestamp at h
      rw [if_neg h1, if_pos h2] at h
      injection h with h
      exact .inr (.inr h.symm)
    · have hw : -211813488000000000 ≤ t.v ∧ t.v ≤ 9223371331200000000 := by
        rw [tsRange_iff, justAfter_eq] at ht
        rcases ht with ht | ht | rfl | rfl
        · omega
        · omega
        · exact absurd rfl h1
        · exact absurd rfl h2
      obtain ⟨c, hr, hn, hy1, hy2, e⟩ := fields_wide p (t := t.v) (by omega)
      have hb := real_bounds hr
      have hj := date2julian_eq p c.y c.m c.d (by omega) (by omega) (by omega) (by omega) (by omega) (by omega) (by omega)
      left
      unfold Date.ofTimestamp at h
      rw [if_neg h1, if_neg h2, e, Res.bind_ok] at h
      dsimp only [tmOf] at h
      rw [hj, Res.bind_ok, jdn_eq, chk32_ok (by omega), Res.bind_ok] at h
      injection h with h
      subst h
      rw [dateRange_iff]
      dsimp only
      omega

theorem timeOf_bounds {p : Profile} {t : Timestamp} {r : Time}
    (ht : TsRange t.v ∨ t.v = justAfter ∨ t = Timestamp.BEGIN ∨ t = Timestamp.END) (h : Time.ofTimestamp p t = .ok (some r)) :
    0 ≤ r.v ∧ r.v < 86400000000 := by
  by_cases hi : t.isInfinite = true
  · unfold Time.ofTimestamp at h
    rw [if_pos hi] at h
    cases h
  · have hw : -211813488000000000 ≤ t.v ∧ t.v ≤ 9223371331200000000 := by
      rw [tsRange_iff, justAfter_eq] at ht
      rcases ht with ht | ht | rfl | rfl
      · omega
      · omega
      · exact absurd rfl hi
      · exact absurd rfl hi
    obtain ⟨c, -, -, -, -, e⟩ := fields_wide p (t := t.v) (by omega)
    unfold Time.ofTimestamp at h
    rw [if_neg hi, e, Res.bind_ok] at h
    unfold tmOf clockOf at h
    dsimp only at h
    rw [chk32_ok (by omega), Res.bind_ok, chk32_ok (by omega), Res.bind_ok, chk32_ok (by omega), Res.bind_ok,
      chk64_ok (by omega), Res.bind_ok, chk64_ok (by omega), Res.bind_ok, chk64_ok (by omega), Res.bind_ok] at h
    injection h with h
    injection h with h
    subst h
    dsimp only
    omega

theorem chk64_wraps {x y : Int} (h : chk64 .release x = .ok y) : y = wrap64 x := by
  unfold chk64 at h
  by_cases hx : In64 x
  · rw [if_pos hx] at h
    injection h with h
    unfold In64 at hx
    unfold wrap64; omega
  · rw [if_neg hx] at h
    injection h with h
    exact h.symm

theorem ofInterval_bounds {p : Profile} {a : Interval} {r : Time} (ha : In64 a.time) (h : Time.ofInterval p a = .ok r) :
    0 ≤ r.v ∧ r.v ≤ latestTime p := by
  by_cases hlow : -(9223372036854775807 - dayMicros) ≤ a.time
  · rw [C21_partial p a ha hlow] at h
    injection h with h
    subst h
    unfold dayMicros
    cases p <;> simp only [latestTime] <;> omega
  · unfold dayMicros at hlow
    unfold In64 at ha
    cases p
    · unfold Time.ofInterval at h
      rw [if_neg (by omega), if_pos (by omega)] at h
      by_cases hm : a.time = -9223372036854775808
      · rw [hm] at h; cases h
      · rw [chk64_ok (by omega), Res.bind_ok] at h
        unfold chk64 at h
        rw [if_neg (by unfold In64; omega)] at h
        cases h
    · unfold Time.ofInterval at h
      rw [if_neg (by omega), if_pos (by omega)] at h
      simp only [Res.bind_eq_ok] at h
      obtain ⟨x1, h1, x2, h2, x3, h3, x4, h4, x5, h5, h⟩ := h
      injection h with h
      subst h
      have q := tdiv_or x3 86400000000
      simp only [latestTime]
      rw [chk64_wraps h5]
      have e1 := chk64_wraps h1
      have e2 := chk64_wraps h2
      have e3 := chk64_wraps h3
      have e4 := chk64_wraps h4
      unfold wrap64 at *
      omega

theorem timeTrunc_bounds {p : Profile} {t r : Time} {ty : FieldType} {u : DateUnit} (ht : 0 ≤ t.v ∧ t.v ≤ latestTime p)
    (h : t.truncate p ty u = .ok r) : 0 ≤ r.v ∧ r.v ≤ latestTime p := by
  have ht' : 0 ≤ t.v ∧ t.v < 172800000000 := by
    cases p <;> simp only [latestTime] at ht <;> omega
  have hw : (Interval.ofTime t).WF := by
    unfold Interval.WF Interval.ofTime In32 In64; dsimp only; omega
  unfold Time.truncate at h
  obtain ⟨a, ha, h⟩ := Res.bind_eq_ok.1 h
  refine ofInterval_bounds ?_ h
  cases ty
  swap
  · cases ha
  have q1 := tdiv_or t.v 3600000000
  have q2 := tdiv_or t.v 60000000
  by_cases hu : CoarseUnit u ∨ FineUnit u
  · obtain ⟨r', hr', hw', -⟩ := (C26_interval_partial p _ hw u (hu.imp id fun hf => ⟨hf, fun _ => by
      unfold Interval.ofTime In32; simp only; omega⟩)).1 (by unfold Interval.ofTime In32; simp only; omega)
    rw [hr'] at ha
    injection ha with ha
    subst ha
    exact hw'.2.2
  · unfold Interval.truncate at ha
    dsimp only at ha
    have e : ∀ x, Interval.truncUnit x u = .err .invalid := by
      intro x
      cases u <;> first | rfl | exact absurd (.inl (by unfold CoarseUnit; decide)) hu | exact absurd (.inr (by unfold FineUnit; decide)) hu
    simp only [e, Res.bind_err, Res.bind_eq_ok] at ha
    obtain ⟨_, -, ha⟩ := ha
    cases ha

theorem stampAdd_bounds {p : Profile} {t r : Timestamp} {a : Interval}
    (ht : TsRange t.v ∨ t.v = justAfter ∨ t = Timestamp.BEGIN ∨ t = Timestamp.END) (h : t.addInterval p a = .ok r) :
    TsRange r.v ∨ r.v = justAfter ∨ r = Timestamp.BEGIN ∨ r = Timestamp.END := by
  rcases C12_ok_valid p t r a h with h | ⟨-, rfl⟩
  · exact .inl h
  · exact ht

theorem stampSub_bounds {p : Profile} {t r : Timestamp} {a : Interval}
    (ht : TsRange t.v ∨ t.v = justAfter ∨ t = Timestamp.BEGIN ∨ t = Timestamp.END) (h : t.subInterval p a = .ok r) :
    TsRange r.v ∨ r.v = justAfter ∨ r = Timestamp.BEGIN ∨ r = Timestamp.END := by
  unfold Timestamp.subInterval at h
  obtain ⟨_, -, h⟩ := Res.bind_eq_ok.1 h
  exact stampAdd_bounds ht h

theorem ofDayTime_valid {d t : Int} {r : Timestamp} (h : Timestamp.ofDayTime d t = .ok r) : TsRange r.v := by
  unfold Timestamp.ofDayTime at h
  split at h
  · cases h
  · split at h
    · cases h
    · split at h
      · rename_i hv
        injection h with h
        subst h
        exact (isValidTimestamp_iff _).1 hv
      · cases h

end Pg

namespace Props
open Pg Spec

/-- **C89.** Whatever constants, constructors, texts and methods a program uses, in whatever order, the dates it makes are
supported or infinite, its timestamps are supported, infinite or the first midnight after the supported ones, and its times
of day are not negative and at most one second after 24:00, or less than 48:00 in a release build. -/
theorem C89_range (p : Profile) (v : Val) (h : Made p v) : v.InBounds p := by
  have day : 86401000000 ≤ latestTime p := by cases p <;> decide
  induction h with
  | dateBegin => exact .inr (.inl rfl)
  | dateEnd => exact .inr (.inr rfl)
  | @ymd y m d r hy h =>
    left
    by_cases hmin : y ≠ -2147483648 ∨ p = .release
    · rw [tryFromYmd_eq p y m d hy hmin] at h
      split at h
      · rename_i ha
        injection h with h
        subst h
        exact (inDateRange_iff ha.2.1).1 ha.2.2
      · cases h
    · rw [not_or, not_not] at hmin
      obtain ⟨rfl, hp⟩ := hmin
      cases p
      · cases h
      · exact absurd rfl hp
  | dateText h =>
    rcases C45_date p _ _ _ _ _ h with h | h | h
    · exact .inl h
    · exact .inr (.inr (by unfold Date.END; rw [← h]))
    · exact .inr (.inl (by unfold Date.BEGIN; rw [← h]))
  | addDays hd h ih =>
    unfold Date.addDays at h
    split at h
    · injection h with h; subst h; exact ih
    · split at h
      · cases h
      · split at h
        · rename_i hv
          injection h with h; subst h
          exact .inl ((isValidDate_iff _).1 hv)
        · cases h
  | subDays hd h ih =>
    unfold Date.subDays at h
    split at h
    · injection h with h; subst h; exact ih
    · split at h
      · cases h
      · split at h
        · rename_i hv
          injection h with h; subst h
          exact .inl ((isValidDate_iff _).1 hv)
        · cases h
  | dateOf ht h ih => exact dateOf_bounds ih h
  | dateTrunc hd h ih =>
    unfold Date.truncate at h
    obtain ⟨x, -, h⟩ := Res.bind_eq_ok.1 h
    obtain ⟨y, hy, h⟩ := Res.bind_eq_ok.1 h
    exact dateOf_bounds (.inl (truncate_valid hy)) h
  | midnight => exact ⟨Int.le_refl 0, by show (0 : Int) ≤ _; omega⟩
  | @hms hh m s r e =>
    cases s with
    | fin q =>
      have := C09_time_range p e
      exact ⟨this.1, by omega⟩
    | inf b => rw [C09_time_infinite] at e; cases e
    | nan =>
      by_cases hc : 0 ≤ hh ∧ hh ≤ 24 ∧ 0 ≤ m ∧ m ≤ 59 ∧ (hh = 24 → m = 0)
      · have e0 : secMicros .nan = 0 := by
          unfold secMicros
          rw [F64.ofInt_usecs]
          rfl
        unfold Time.tryFromHms at e
        split at e
        · cases e
        · unfold clockMicros at e
          rw [chk32_ok (by omega), Res.bind_ok, chk32_ok (by omega), Res.bind_ok, chk32_ok (by omega), Res.bind_ok,
            chk64_ok (by omega), Res.bind_ok, e0, chk64_ok (by omega), Res.bind_ok] at e
          injection e with e
          subst e
          show 0 ≤ _ ∧ _ ≤ latestTime p
          dsimp only
          omega
      · have hb : badClock hh m .nan = true := by
          unfold badClock
          simp only [Bool.or_eq_true, Bool.and_eq_true, decide_eq_true_eq]
          omega
        unfold Time.tryFromHms at e
        rw [if_pos hb] at e
        cases e
  | timeText h =>
    have := C45_time_partial p _ _ _ _ _ _ h
    exact ⟨this.1, by omega⟩
  | @timeAdd t r a ht h ih =>
    obtain ⟨⟨x, e, h1, h2⟩, -⟩ := C20_total p t a
    rw [e] at h
    injection h with h
    subst h
    unfold dayMicros at h2
    exact ⟨h1, by omega⟩
  | @timeSub t r a ht h ih =>
    obtain ⟨-, x, e, h1, h2⟩ := C20_total p t a
    rw [e] at h
    injection h with h
    subst h
    unfold dayMicros at h2
    exact ⟨h1, by omega⟩
  | timeOf ht h ih =>
    have := timeOf_bounds ih h
    exact ⟨this.1, by omega⟩
  | timeOfSpan ha h => exact ofInterval_bounds ha.2.2 h
  | timeTrunc ht h ih => exact timeTrunc_bounds ih h
  | stampBegin => exact .inr (.inr (.inl rfl))
  | stampEnd => exact .inr (.inr (.inr rfl))
  | ymdHms e =>
    left
    unfold Timestamp.tryFromYmdHms at e
    obtain ⟨_, -, e⟩ := Res.bind_eq_ok.1 e
    split at e
    · cases e
    · obtain ⟨_, -, e⟩ := Res.bind_eq_ok.1 e
      obtain ⟨_, -, e⟩ := Res.bind_eq_ok.1 e
      split at e
      · cases e
      · obtain ⟨_, -, e⟩ := Res.bind_eq_ok.1 e
        exact ofDayTime_valid e
  | stampText h =>
    rcases C45_timestamp_partial p _ _ _ _ _ _ h with h | h | h | ⟨h, -⟩
    · exact .inl h
    · exact .inr (.inr (.inr (by unfold Timestamp.END; rw [← h])))
    · exact .inr (.inr (.inl (by unfold Timestamp.BEGIN; rw [← h])))
    · exact .inr (.inl (by rw [justAfter_eq]; exact h))
  | stampOf hd h ih => exact ((ofDate_spec p ih).2 _ h).1.imp id .inr
  | stampAdd ht h ih => exact stampAdd_bounds ih h
  | stampSub ht h ih => exact stampSub_bounds ih h
  | stampAddTime ht hc h ih _ => exact stampAdd_bounds ih h
  | stampSubTime ht hc h ih _ => exact stampSub_bounds ih h
  | stampTrunc ht h ih => exact .inl (truncate_valid h)
  | dateAdd hd h ih =>
    obtain ⟨x, hx, h⟩ := Res.bind_eq_ok.1 h
    exact stampAdd_bounds (((ofDate_spec p ih).2 _ hx).1.imp id .inr) h
  | dateSub hd h ih =>
    obtain ⟨x, hx, h⟩ := Res.bind_eq_ok.1 h
    exact stampSub_bounds (((ofDate_spec p ih).2 _ hx).1.imp id .inr) h
  | dateAddTime hd hc h ih _ =>
    unfold Date.addTime at h
    obtain ⟨x, hx, h⟩ := Res.bind_eq_ok.1 h
    split at h
    · obtain ⟨y, hy, h⟩ := Res.bind_eq_ok.1 h
      split at h
      · rename_i hv
        injection h with h; subst h
        exact .inl ((isValidTimestamp_iff _).1 hv)
      · cases h
    · injection h with h; subst h
      exact ((ofDate_spec p ih).2 _ hx).1.imp id .inr

/-- A program: the date 29 February 2024 less a month, as a timestamp; its time of day plus 25 hours. -/
example : Made .debug (.stamp ⟨instant ⟨2024, 1, 29⟩ ⟨0, 0, 0, 0⟩⟩) ∧ Made .debug (.time ⟨3600000000⟩) := by
  have h1 : Made .debug (.date ⟨dayNumber ⟨2024, 2, 29⟩⟩) := .ymd (y := 2024) (m := 2) (d := 29) (by decide) (by decide)
  have h2 : Made .debug (.stamp ⟨instant ⟨2024, 1, 29⟩ ⟨0, 0, 0, 0⟩⟩) := .dateAdd (a := ⟨-1, 0, 0⟩) h1 (by decide)
  exact ⟨h2, .timeAdd (a := ⟨0, 0, 25 * 3600000000⟩) (.timeOf (r := ⟨0⟩) h2 (by decide)) (by decide)⟩

/-- **C89, violation.** The supported ranges proper are left: a program can make the timestamp just after the range, the
time 24:00:01, and in a release build the time 47:59:59.999998. -/
theorem C89_violated (p : Profile) :
    Made p (.stamp ⟨justAfter⟩) ∧ ¬ TsRange justAfter ∧
    Made p (.time ⟨24 * 3600000000 + 1000000⟩) ∧ Made .release (.time ⟨48 * 3600000000 - 2⟩) := by
  refine ⟨?_, by decide, ?_, ?_⟩
  · rw [justAfter_eq]
    exact .stampText (C45_timestamp_violated p .date .new Caches.ok_new .ymd).1
  · exact .timeText (C45_time_violated p .date .new Caches.ok_new .ymd).2
  · exact .timeOfSpan (a := ⟨0, 0, -9223371964909551618⟩) (by decide) (by decide)

end Props

namespace Pg
open Spec Props

theorem normMonth_release {y m : Int} (hm : In32 m) : ∃ y' m', Timestamp.normMonth .release y m = .ok (y', m') ∧ 1 ≤ m' ∧ m' ≤ 12 := by
  unfold In32 at hm
  have q1 := tmod_or (m - 1) 12
  have q2 := tmod_or m 12
  have q3 := tdiv_or m 12
  unfold Timestamp.normMonth
  by_cases h1 : m > 12
  · rw [if_pos h1, chk32_ok (by omega), Res.bind_ok, chk32_ok (by omega), Res.bind_ok]
    exact ⟨_, _, rfl, by omega, by omega⟩
  · rw [if_neg h1]
    by_cases h2 : m < 1
    · rw [if_pos h2, chk32_ok (by omega), Res.bind_ok, chk32_ok (by omega), Res.bind_ok]
      exact ⟨_, _, rfl, by omega, by omega⟩
    · rw [if_neg h2]
      exact ⟨_, _, rfl, by omega, by omega⟩

/-- Adding to any finite timestamp, supported or not. -/
theorem addInterval_release (t : Timestamp) (a : Interval) : t.addInterval .release a ≠ .panic := by
  have h2t : ∀ v, timestamp2time .release v ≠ .panic := by
    intro v
    have h2 := julian2date_release
    have h4 := date2time_release
    unfold timestamp2time timestampModulo dayNormalize
    refine Res.safe_bind ?_ fun _ => Res.safe_bind ?_ fun _ => Res.safe_bind (chk64_release _) fun _ => ?_
    · calmly
    · calmly
    · dsimp only
      split
      · exact Res.safe_err _
      · exact Res.safe_bind (h2 _) fun _ => Res.safe_bind (h4 _) fun _ => Res.safe_pure _
  unfold Timestamp.addInterval
  refine Res.safe_ite (Res.safe_ok _) (Res.safe_bind ?_ fun _ => Res.safe_bind ?_ fun _ => Res.safe_ite (Res.safe_ok _) (Res.safe_err _))
  · unfold Timestamp.monthStep
    refine Res.safe_ite ?_ (Res.safe_ok _)
    unfold Timestamp.addMonths
    refine Res.safe_bind (h2t _) fun x => ?_
    obtain ⟨y', m', e, h1, h2⟩ := normMonth_release (y := x.1.year) (m := wrap32 (x.1.mon + a.month)) (by unfold wrap32 In32; omega)
    dsimp only
    rw [e, Res.bind_ok]
    exact Res.safe_bind (daysOfMonth_safe _ _ ⟨h1, h2⟩) fun _ => toTimestamp_release _ _
  · unfold Timestamp.dayStep
    exact Res.safe_ite (addDays_release _ _) (Res.safe_ok _)

theorem subInterval_release (t : Timestamp) (a : Interval) : t.subInterval .release a ≠ .panic := by
  unfold Timestamp.subInterval
  refine Res.safe_bind ?_ fun _ => addInterval_release _ _
  unfold Interval.negate
  calmly

theorem time_fields {p : Profile} {t : Time} (h0 : 0 ≤ t.v) (h1 : t.v < 172800000000) :
    t.toPgtime p = .ok ({ PgTime.new with hour := t.v / 3600000000, min := t.v % 3600000000 / 60000000,
                                          sec := t.v % 60000000 / 1000000 }, t.v % 1000000) := by
  unfold Time.toPgtime
  simp (disch := omega) only [tdiv_nn, chk64_ok, wrap32_of_in, Res.bind_ok, Res.pure_eq]
  simp only [Res.ok.injEq, Prod.mk.injEq, PgTime.mk.injEq]
  simp only [and_true]
  omega

end Pg

namespace Props
open Pg Spec

/-- **C89.** In a release build no method panics on a value that a program can make: adding, subtracting, differences,
`age`, truncating, fields, conversions and printing of timestamps and dates, and the same of times of day. -/
theorem C89_no_panic (junk : Bytes) (hj : junk.length = 128) :
    (∀ t, Made .release (.stamp t) →
      (∀ a, t.addInterval .release a ≠ .panic ∧ t.subInterval .release a ≠ .panic) ∧
      (∀ c, t.addTime .release c ≠ .panic ∧ t.subTime .release c ≠ .panic) ∧
      (∀ s, Made .release (.stamp s) → t.subTimestamp .release s ≠ .panic ∧ t.age .release s ≠ .panic) ∧
      (∀ d, Made .release (.date d) → t.subDate .release d ≠ .panic) ∧
      (∀ ty u, t.truncate .release ty u ≠ .panic ∧ t.datePart .release ty u ≠ .panic) ∧
      Date.ofTimestamp .release t ≠ .panic ∧ Time.ofTimestamp .release t ≠ .panic ∧
      ∀ st o, t.format .release junk st o ≠ .panic) ∧
    (∀ d, Made .release (.date d) →
      (∀ n, d.addDays n ≠ .panic ∧ d.subDays n ≠ .panic) ∧
      (∀ e, Made .release (.date e) → d.subDate .release e ≠ .panic) ∧
      (∀ a, a.WF → d.addInterval .release a ≠ .panic ∧ d.subInterval .release a ≠ .panic) ∧
      (∀ c, d.addTime .release c ≠ .panic) ∧
      (∀ ty u, d.truncate .release ty u ≠ .panic ∧ d.datePart .release ty u ≠ .panic) ∧
      Timestamp.ofDate .release d ≠ .panic ∧ ∀ st o, d.format .release junk st o ≠ .panic) ∧
    (∀ t, Made .release (.time t) →
      (∀ a, t.addInterval .release a ≠ .panic ∧ t.subInterval .release a ≠ .panic) ∧
      (∀ ty u, t.truncate .release ty u ≠ .panic ∧ t.datePart .release ty u ≠ .panic) ∧
      ∀ st, t.format .release junk st ≠ .panic) := by
  have hinf : (⟨9223371331200000000⟩ : Timestamp).isInfinite = false := by decide
  refine ⟨fun t ht => ?_, fun d hd => ?_, fun t ht => ?_⟩
  · have hb := C89_range _ _ ht
    have hsub : ∀ s, t.subTimestamp .release s ≠ .panic := by
      intro s
      unfold Timestamp.subTimestamp
      refine Res.safe_ite (Res.safe_err _) (Res.safe_bind_post (chk64_release _) fun x hx => C16_no_panic _ _ ?_)
      rw [chk64_wraps hx]
      unfold Interval.WF wrap64 In32 In64; dsimp only; omega
    have hage : ∀ s, Made .release (.stamp s) → t.age .release s ≠ .panic := by
      intro s hs
      have hsb := C89_range _ _ hs
      have wide : ∀ {x : Timestamp}, (TsRange x.v ∨ x.v = justAfter ∨ x = Timestamp.BEGIN ∨ x = Timestamp.END) →
          x ≠ .BEGIN → -211813488000000000 ≤ x.v ∧ x.v ≤ 9223372036854775807 := by
        rintro x (h | h | rfl | rfl) hb
        · rw [tsRange_iff] at h; omega
        · rw [h]; decide
        · exact absurd rfl hb
        · decide
      by_cases h1 : t = .BEGIN
      · subst h1
        exact np_err ⟨.overflow, by unfold Timestamp.age; rw [show timestamp2time .release Timestamp.BEGIN.v = .err .overflow from by decide]; rfl⟩
      by_cases h2 : s = .BEGIN
      · subst h2
        obtain ⟨c, -, -, -, -, e⟩ := fields_wide .release (wide hb h1)
        exact np_err ⟨.overflow, by
          unfold Timestamp.age
          rw [e, Res.bind_ok, show timestamp2time .release Timestamp.BEGIN.v = .err .overflow from by decide]; rfl⟩
      rcases Int.le_total s.v t.v with hle | hle
      · obtain ⟨_, _, _, _, _, -, -, -, -, -, -, -, -, -, -, -, e, -⟩ := age_wide .release t s (wide hb h1) (wide hsb h2) hle
        exact np_ok e
      · obtain ⟨_, _, _, _, _, -, -, -, -, -, -, -, -, -, -, -, -, e⟩ := age_wide .release s t (wide hsb h2) (wide hb h1) hle
        exact np_ok e
    refine ⟨fun a => ⟨addInterval_release _ _, subInterval_release _ _⟩, fun c => ⟨addInterval_release _ _, subInterval_release _ _⟩,
      fun s hs => ⟨hsub s, hage s hs⟩, fun d hd => ?_, fun ty u => ?_, ?_⟩
    · exact Res.safe_bind_post (ofDate_spec .release (C89_range _ _ hd)).1 fun x _ => hsub x
    · rcases hb with h | h | h
      · exact ⟨truncate_safe .release (.inl h) ty u nofun, datePart_safe .release (.inl h) ty u⟩
      · have : t = ⟨9223371331200000000⟩ := by cases t; rw [justAfter_eq] at h; exact congrArg _ h
        subst this
        cases ty <;> cases u <;> exact ⟨by decide +kernel, by decide +kernel⟩
      · exact ⟨truncate_safe .release (.inr h) ty u nofun, datePart_safe .release (.inr h) ty u⟩
    · rcases hb with h | h | h
      · obtain ⟨-, -, -, -, -, -, -, -, h1, h2, h3⟩ := C87_timestamp_partial .release t t (.inl h) (.inl h)
        exact ⟨h1, h2, h3 junk hj⟩
      · have : t = ⟨9223371331200000000⟩ := by cases t; rw [justAfter_eq] at h; exact congrArg _ h
        subst this
        refine ⟨by decide, by decide, fun st o => ?_⟩
        have e : timestamp2time .release 9223371331200000000 =
            .ok (tmOf ⟨294277, 1, 1⟩ ⟨0, 0, 0, 0⟩, 0) := by decide
        unfold Timestamp.format
        rw [hinf, if_neg (by simp)]
        dsimp only
        rw [e, Res.bind_ok]
        refine np_ok (Emits.run (w := timestampText st o ⟨294277, 1, 1⟩ ⟨0, 0, 0, 0⟩) ?_ ?_)
        · exact (putDateTime_emits .release (c := ⟨294277, 1, 1⟩) (t := ⟨0, 0, 0, 0⟩) (by decide) (by decide)
            (by decide) (by decide) o st).bind (putEra_emits _)
        · rw [hj]
          exact timestampText_len st o (by decide) (by decide) (by decide)
      · obtain ⟨-, -, -, -, -, -, -, -, h1, h2, h3⟩ := C87_timestamp_partial .release t t (.inr h) (.inr h)
        exact ⟨h1, h2, h3 junk hj⟩
  · have hb : DayOk d := C89_range _ _ hd
    obtain ⟨h1, -, -, -, h5, h6, h7, h8, h9⟩ := C87_date_partial .release d d hb hb
    refine ⟨h1, fun e he => ?_, fun a ha => ⟨?_, ?_⟩, h5, fun ty u => ⟨h6 ty u nofun, h7 ty u⟩, h8, h9 junk hj⟩
    · exact (C87_date_partial .release d e hb (C89_range _ _ he)).2.1
    · exact (C87_date_partial .release d d hb hb).2.2.1 a ha nofun
    · exact (C87_date_partial .release d d hb hb).2.2.2.1 a nofun
  · have hb : 0 ≤ t.v ∧ t.v ≤ 48 * 3600000000 - 2 := C89_range _ _ ht
    have hf := time_fields (p := .release) hb.1 (by omega)
    refine ⟨fun a => ?_, fun ty u => ⟨?_, ?_⟩, fun st => ?_⟩
    · obtain ⟨⟨r, e, -⟩, ⟨r', e', -⟩⟩ := C20_total .release t a
      exact ⟨np_ok e, np_ok e'⟩
    · unfold Time.truncate
      refine Res.safe_bind (intervalTruncate_safe .release ?_ ty u fun _ _ => ?_) fun x => ?_
      · unfold Interval.WF Interval.ofTime In32 In64; dsimp only; omega
      · have := tdiv_or t.v 60000000
        unfold Interval.ofTime In32; dsimp only; omega
      · unfold Time.ofInterval; calmly
    · cases ty
      · unfold Time.datePart
        dsimp only
        rw [hf, Res.bind_ok]
        cases u <;> first | exact Res.safe_ok _ | exact Res.safe_err _
      · unfold Time.datePart
        exact Res.safe_ite (Res.safe_ok _) (Res.safe_err _)
    · rw [Time.format, hf, Res.bind_ok]
      refine np_ok (Emits.run (putClock_emits .release (tm := { PgTime.new with hour := t.v / 3600000000, min := t.v % 3600000000 / 60000000, sec := t.v % 60000000 / 1000000 }) (fsec := t.v % 1000000) ?_ ?_ ?_ ?_) ?_)
      · dsimp only; omega
      · dsimp only; omega
      · dsimp only; omega
      · omega
      · have := clockText_len (t := ⟨t.v / 3600000000, t.v % 3600000000 / 60000000, t.v % 60000000 / 1000000, t.v % 1000000⟩)
          (by dsimp only; omega) (by dsimp only; omega) (by dsimp only; omega) (by dsimp only; omega)
        rw [hj]; exact le_trans this (by omega)

/-- On the timestamp just after the range: its day, its minute less one microsecond, its printing. -/
example : Made .release (.stamp ⟨justAfter⟩) ∧
    Date.ofTimestamp .release ⟨justAfter⟩ = .ok ⟨dayNumber ⟨294277, 1, 1⟩⟩ ∧
    Timestamp.subInterval .release ⟨justAfter⟩ ⟨0, 0, 1⟩ = .ok ⟨instant ⟨294276, 12, 31⟩ ⟨23, 59, 59, 999999⟩⟩ ∧
    Timestamp.format .release (List.replicate 128 0) ⟨justAfter⟩ .iso .ymd = .ok b!"294277-01-01 00:00:00" :=
  ⟨(C89_violated .release).1, by decide, by decide, by decide +kernel⟩

end Props
