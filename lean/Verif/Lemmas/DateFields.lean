import Verif.Lemmas.DateParse
import Verif.Lemmas.TimeOnly
import Verif.Lemmas.JulianWide

/-! # Fields of dates and timestamps, one by one, and the final checks -/

namespace Pg
open Spec

/-- The year meant by a non-negative number. -/
def yearOf (v : Int) (is2 bc : Bool) : Option Int :=
  if bc then if v = 0 then none else some (1 - v)
  else if is2 then some (if v < 70 then v + 2000 else if v < 100 then v + 1900 else v)
  else if v = 0 then none else some v

theorem and_sub {m a b : Nat} (h : m &&& a = a) (hb : a &&& b = b) : m &&& b = b := by
  calc m &&& b = m &&& (a &&& b) := by rw [hb]
    _ = (m &&& a) &&& b := by rw [Nat.and_assoc]
    _ = b := by rw [h, hb]

theorem validateMonthDay_gen (tm : PgTime) {m : Nat} (hm : m &&& 14 = 14) :
    tm.validateMonthDay m =
      if (⟨tm.year, tm.mon, tm.mday⟩ : YMD).Real then .ok tm else .err .overflow := by
  rw [← validateMonthDay_date]
  unfold PgTime.validateMonthDay
  have b1 : hasBits m 2 = true := by unfold hasBits; rw [and_sub (b := 2) hm (by decide)]; rfl
  have b2 : hasBits m 8 = true := by unfold hasBits; rw [and_sub (b := 8) hm (by decide)]; rfl
  have c1 : hasBits 14 2 = true := by decide
  have c2 : hasBits 14 8 = true := by decide
  rw [b1, b2, hm, c1, c2]
  rfl

/-- `validate_date` on a full date. -/
theorem validateDate_gen (p : Profile) (tm : PgTime) {m : Nat} (is2 bc : Bool) (hm : m &&& 14 = 14)
    (hd : m &&& 32768 = 0) (hy : 0 ≤ tm.year ∧ tm.year ≤ 2147483647) :
    tm.validateDate p m false is2 bc =
      match yearOf tm.year is2 bc with
      | none => .err .overflow
      | some y => if (⟨y, tm.mon, tm.mday⟩ : YMD).Real then .ok { tm with year := y } else .err .overflow := by
  have b1 : hasBits m 4 = true := by unfold hasBits; rw [and_sub (b := 4) hm (by decide)]; rfl
  have b2 : hasBits m 32768 = false := by unfold hasBits; rw [hd]; rfl
  have fin : ∀ t : PgTime, (t.validateDoy p m >>= fun t => t.validateMonthDay m) =
      if (⟨t.year, t.mon, t.mday⟩ : YMD).Real then .ok t else .err .overflow := by
    intro t
    unfold PgTime.validateDoy
    rw [b2]
    simp only [Bool.false_eq_true, if_false, Res.bind_ok]
    exact validateMonthDay_gen t hm
  have e : tm.validateYear p m false is2 bc =
      match yearOf tm.year is2 bc with
      | none => .err .overflow
      | some y => .ok { tm with year := y } := by
    unfold PgTime.validateYear yearOf
    rw [b1]
    simp only [if_true, Bool.false_eq_true, if_false]
    cases bc
    · simp only [Bool.false_eq_true, if_false]
      cases is2
      · simp only [Bool.false_eq_true, if_false]
        by_cases h : tm.year = 0
        · rw [if_pos (by omega), if_pos h]
        · rw [if_neg (by omega), if_neg h]
      · simp only [if_true]
        rw [if_neg (by omega)]
        by_cases h : tm.year < 70
        · rw [if_pos h, if_pos h, chk32_ok (by omega)]; rfl
        · rw [if_neg h, if_neg h]
          by_cases h2 : tm.year < 100
          · rw [if_pos h2, if_pos h2, chk32_ok (by omega)]; rfl
          · rw [if_neg h2, if_neg h2]
    · simp only [if_true]
      by_cases h : tm.year = 0
      · rw [if_pos (by omega), if_pos h]
      · rw [if_neg (by omega), if_neg h, chk32_ok (by omega), Res.bind_ok, chk32_ok (by omega), Res.bind_ok]
        simp only [Res.pure_eq]
        rw [show -(tm.year - 1) = 1 - tm.year by omega]
  unfold PgTime.validateDate
  rw [e]
  cases yearOf tm.year is2 bc with
  | none => rfl
  | some y => simp only [Res.bind_ok]; exact fin _

/-- The end of `decode_date_time` when a full date has been read. -/
theorem dateTime_finish (p : Profile) (order : DateOrder) {l : List Field} {d : Dec}
    (h : dateTimeLoop p plainLook order (l.map Prod.fst) l 0 ({}, ()) = (.ok (), (d, ())))
    (hj : d.isJulian = false) (hmer : d.mer = 2) (hm : d.fMask &&& 14 = 14)
    (hd : d.fMask &&& 32768 = 0) (hy : 0 ≤ d.tm.year ∧ d.tm.year ≤ 2147483647) :
    decodeDateTime p plainLook order l ({}, ()) =
      match yearOf d.tm.year d.is2 d.bc with
      | none => (.err .overflow, (d, ()))
      | some y => if (⟨y, d.tm.mon, d.tm.mday⟩ : YMD).Real then
          (.ok (), ({ d with tm := { d.tm with year := y } }, ())) else (.err .overflow, (d, ())) := by
  have hv := validateDate_gen p d.tm d.is2 d.bc hm hd hy
  unfold decodeDateTime
  rw [St.bind_ok h]
  cases hyo : yearOf d.tm.year d.is2 d.bc with
  | none =>
    rw [hyo] at hv
    have e : finishFields p d = (.err .overflow, d) := by
      unfold finishFields
      rw [St.get_bind, hj, hv]
      rfl
    rw [St.bind_err (noLook_run e)]
  | some y =>
    rw [hyo] at hv
    simp only at hv ⊢
    by_cases hr : (⟨y, d.tm.mon, d.tm.mday⟩ : YMD).Real
    · rw [if_pos hr] at hv ⊢
      have e : finishFields p d = (.ok (), { d with tm := { d.tm with year := y } }) := by
        unfold finishFields
        rw [St.get_bind, hj, hv, St.lift_ok_bind, St.mod_bind, St.get_bind]
        simp [hmer, hj, St.pure_run]
      rw [St.bind_ok (noLook_run e), St.bind_ok (noLook_run (St.get_run _)), St.ite_run, if_neg (by simp [hm])]
      rfl
    · rw [if_neg hr] at hv ⊢
      have e : finishFields p d = (.err .overflow, d) := by
        unfold finishFields
        rw [St.get_bind, hj, hv]
        rfl
      rw [St.bind_err (noLook_run e)]

theorem dateTime_err (p : Profile) (order : DateOrder) {l : List Field} {s : Dec × Unit} {e : Err}
    (h : dateTimeLoop p plainLook order (l.map Prod.fst) l 0 ({}, ()) = (.err e, s)) :
    decodeDateTime p plainLook order l ({}, ()) = (.err e, s) := by
  unfold decodeDateTime
  rw [St.bind_err h]

section
variable {p : Profile} {order : DateOrder} {ft : List TokenField} {i : Nat} {d : Dec}

theorem addMask_run (h : d.tMask &&& d.fMask = 0) :
    addMask d = (.ok (), { d with fMask := d.fMask ||| d.tMask }) := by
  unfold addMask
  rw [St.get_bind, St.ite_run, if_neg (by simpa using h)]
  rfl

/-- A date field of three numbers. -/
theorem field_date {a b c : Bytes} {x y : Nat} (hx : isSep x) (hy : isSep y)
    (ha : Digits a) (na : a ≠ []) (hb : Digits b) (nb : b ≠ []) (hc : Digits c) (nc : c ≠ [])
    (h3 : 3 ≤ a.length ∨ order = .ymd → b.length ≠ 3) (hf : d.fMask = 0) (hp : d.pType = .number)
    {n : Bytes × Bytes × Bytes} (hn : assign3 order (decide (3 ≤ a.length)) a b c = n) :
    if NumOk a ∧ NumOk b ∧ NumOk c then
      dateTimeField p plainLook order ft i (.date, a ++ x :: (b ++ y :: c)) (d, ()) =
        (.ok (), ({ d with tm := { d.tm with year := value n.1, mon := value n.2.1, mday := value n.2.2 },
                           is2 := decide (n.1.length ≤ 2), tMask := 14, fMask := 14 }, ()))
    else ∃ s', dateTimeField p plainLook order ft i (.date, a ++ x :: (b ++ y :: c)) (d, ()) =
      (.err .overflow, s') := by
  have h := decodeDate_three order hx hy ha na hb nb hc nc h3 d hf hn
  have e : dateToken p plainLook (a ++ x :: (b ++ y :: c)) order (d, ()) =
      decodeDate plainLook (a ++ x :: (b ++ y :: c)) order (d, ()) := by
    unfold dateToken
    rw [St.bind_ok (noLook_run (St.get_run _)), St.ite_run, if_neg (by rw [hp]; decide), St.ite_run,
      if_neg (by rw [hp, hf]; decide)]
  unfold dateTimeField
  simp only
  by_cases hk : NumOk a ∧ NumOk b ∧ NumOk c
  · rw [if_pos hk] at h ⊢
    rw [St.bind_ok (e.trans h), noLook_run (addMask_run (by simp [hf]))]
    simp [hf]
  · rw [if_neg hk] at h ⊢
    obtain ⟨s', h⟩ := h
    exact ⟨s', by rw [St.bind_err (e.trans h)]⟩

/-- A clock time is allowed in a timestamp. -/
def HourOk (h m s f : Int) : Prop := h ≤ 24 ∧ (h = 24 → m = 0 ∧ s = 0 ∧ f = 0)

/-- A time field. -/
theorem field_time_ok {hh mm ss : Bytes} {f : Option Bytes} (h1 : Digits hh) (n1 : hh ≠ [])
    (h2 : Digits mm) (n2 : mm ≠ []) (h3 : Digits ss) (n3 : ss ≠ []) (hf : Digits (fracDigits f))
    (hr : Readable hh mm ss f) (hci : ClockInput (value hh) (value mm) (value ss) (fracMicros f))
    (hp : d.pType = .number ∨ d.pType = .time) (hm : d.fMask &&& DTK_TIME_M = 0) :
    dateTimeField p plainLook order ft i (.time, hmsBytes hh mm ss f) (d, ()) =
      (.ok (), ({ d with pType := .number, tMask := DTK_TIME_M, fMask := d.fMask ||| DTK_TIME_M,
                         tm := { d.tm with hour := value hh, min := value mm, sec := value ss },
                         fSec := fracMicros f }, ())) := by
  obtain ⟨c1, c2, c3, c4⟩ := hci
  have ht := decodeTime_ok h1 n1 h2 n2 h3 n3 hf hr (by omega) c2 c3 INTERVAL_FULL_RANGE
    ⟨d.tMask, d.tm, d.fSec⟩
  have e : timeToken (hmsBytes hh mm ss f) d =
      (.ok (), { d with pType := .number, tMask := DTK_TIME_M,
                        tm := { d.tm with hour := value hh, min := value mm, sec := value ss },
                        fSec := fracMicros f }) := by
    unfold timeToken
    rw [St.get_bind, St.ite_run, if_neg (by tauto), St.mod_bind]
    have e2 : onTime (decodeTime (hmsBytes hh mm ss f) INTERVAL_FULL_RANGE) { d with pType := .number } =
        (.ok (), { d with pType := .number, tMask := DTK_TIME_M,
                          tm := { d.tm with hour := value hh, min := value mm, sec := value ss },
                          fSec := fracMicros f }) := by
      simp only [onTime, St.zoom, ht]
    rw [St.bind_ok e2, St.get_bind, St.ite_run, if_neg]
    · rfl
    · simp only
      rw [imp_iff_not_or] at c4
      omega
  unfold dateTimeField
  simp only
  rw [St.bind_ok (noLook_run e), noLook_run (addMask_run (by rw [Nat.and_comm]; exact hm))]

theorem field_time_err {hh mm ss : Bytes} {f : Option Bytes} (h1 : Digits hh) (n1 : hh ≠ [])
    (h2 : Digits mm) (n2 : mm ≠ []) (h3 : Digits ss) (n3 : ss ≠ []) (hf : Digits (fracDigits f))
    (hr : ¬ (Readable hh mm ss f ∧ ClockInput (value hh) (value mm) (value ss) (fracMicros f))) 
    (hp : d.pType = .number ∨ d.pType = .time) :
    ∃ e s', dateTimeField p plainLook order ft i (.time, hmsBytes hh mm ss f) (d, ()) = (.err e, s') := by
  have key : ∃ e s', timeToken (hmsBytes hh mm ss f) d = (.err e, s') := by
    unfold timeToken
    rw [St.get_bind, St.ite_run, if_neg (by tauto), St.mod_bind]
    by_cases hg : Readable hh mm ss f ∧ value hh ≤ 2147483647 ∧ value mm ≤ 59 ∧ value ss ≤ 60
    · have ht := decodeTime_ok h1 n1 h2 n2 h3 n3 hf hg.1 hg.2.1 hg.2.2.1 hg.2.2.2 INTERVAL_FULL_RANGE
        ⟨d.tMask, d.tm, d.fSec⟩
      have e2 : onTime (decodeTime (hmsBytes hh mm ss f) INTERVAL_FULL_RANGE) { d with pType := .number } =
          (.ok (), { d with pType := .number, tMask := DTK_TIME_M,
                            tm := { d.tm with hour := value hh, min := value mm, sec := value ss },
                            fSec := fracMicros f }) := by
        simp only [onTime, St.zoom, ht]
      have hb := fracMicros_bounds hf hg.1.2.2.2
      rw [St.bind_ok e2, St.get_bind, St.ite_run, if_pos]
      · exact ⟨_, _, rfl⟩
      · simp only
        by_contra hcon
        refine hr ⟨hg.1, ?_⟩
        unfold ClockInput
        rw [imp_iff_not_or]
        omega
    · obtain ⟨e, t, ht⟩ := decodeTime_err h1 n1 h2 n2 h3 n3 hf hg INTERVAL_FULL_RANGE
        ⟨d.tMask, d.tm, d.fSec⟩
      have e2 : onTime (decodeTime (hmsBytes hh mm ss f) INTERVAL_FULL_RANGE) { d with pType := .number } =
          (.err e, { d with pType := .number, tMask := t.tMask, tm := t.tm, fSec := t.fsec }) := by
        simp only [onTime, St.zoom, ht]
      exact ⟨_, _, St.bind_err e2⟩
  obtain ⟨e, s', hk⟩ := key
  unfold dateTimeField
  simp only
  exact ⟨e, _, St.bind_err (noLook_run hk)⟩

/-- The word `bc`. -/
theorem field_bc (hm : d.fMask &&& 262144 = 0) :
    dateTimeField p plainLook order ft i (.string, b!"bc") (d, ()) =
      (.ok (), ({ d with bc := true, tMask := 262144, fMask := d.fMask ||| 262144 }, ())) := by
  have hl : lookDate plainLook i b!"bc" (d, ()) = (.ok (.adbc, 1), (d, ())) := by
    have : searchDate b!"bc" = .ok (some ⟨b!"bc", .adbc, 1⟩) := by decide +kernel
    unfold lookDate plainLook
    simp only [this]
    rfl
  have ha : wordAction ft i .adbc 1 d = (.ok (), { d with bc := true, tMask := 262144 }) := by
    unfold wordAction
    rw [St.mod_bind]
    rfl
  have e : wordToken plainLook ft i b!"bc" (d, ()) =
      (.ok false, ({ d with bc := true, tMask := 262144 }, ())) := by
    unfold wordToken
    rw [St.bind_ok hl]
    simp only
    rw [St.ite_run, if_neg (by decide), St.bind_ok (noLook_run ha)]
    rfl
  unfold dateTimeField
  simp only
  rw [St.bind_ok e]
  simp only [Bool.false_eq_true, if_false]
  rw [noLook_run (addMask_run (by rw [Nat.and_comm]; exact hm))]

end

/-- The date of a decoded full date. -/
theorem date_ofDec (p : Profile) {d : Dec} {c : YMD} (ht : d.dType = .date) (h1 : d.tm.year = c.y)
    (h2 : d.tm.mon = c.m) (h3 : d.tm.mday = c.d) (h : c.Real) :
    Date.ofDec p d = if DateRange (dayNumber c) then .ok ⟨dayNumber c⟩ else .err .invalid := by
  unfold Date.ofDec
  rw [ht]
  simp only [h1, h2, h3]
  have hb := real_bounds h
  by_cases hv : isValidJulian c.y c.m = true
  · rw [if_neg (by simpa using hv)]
    have hi := instant_bounds (y := c.y) (m := c.m) (d := c.d) ⟨hb.1, hb.2.1⟩ hb.2.2 hv
    have hv' := (isValidJulian_iff _ _).1 hv
    rw [date2julian_eq p _ _ _ (by omega) (by omega) (by omega) (by omega) (by omega) (by omega)
      (by omega)]
    have e := jdn_eq c
    simp only [Res.bind_ok]
    rw [chk32_ok (by omega)]
    simp only [Res.bind_ok, isValidDate_iff]
    rw [e, show dayNumber c + 2451545 - 2451545 = dayNumber c by omega]
  · rw [if_pos (by simpa using hv), if_neg]
    intro hr
    rw [dateRange_iff] at hr
    exact hv (isValidJulian_of_range h hr.1 hr.2)

theorem not_tsRange_wide {c : YMD} {t : Clock} (h : c.Real) (ht : 0 ≤ t.micros ∧
    t.micros ≤ 400000000000) (hv : ¬ isValidJulian c.y c.m = true) : ¬ TsRange (instant c t) := by
  intro hr
  rw [tsRange_iff] at hr
  unfold instant dayMicros at hr
  have h0 : -2451545 - 6 ≤ dayNumber c := by omega
  have h1 : dayNumber c < 2145031949 := by omega
  apply hv
  have e := jdn_eq c
  have b := year_of_jdn_lt (y := c.y) (m := c.m) (d := c.d) h (by omega)
  have hb := real_bounds h
  have md := h.2.2.2
  rw [isValidJulian_iff]
  rw [jdn_closed _ _ _ hb.1 hb.2.1] at e
  split at e <;> omega

/-- The timestamp of a decoded full date and clock time. -/
theorem timestamp_ofDec (p : Profile) {d : Dec} {c : YMD} {t : Clock} (ht : d.dType = .date)
    (h1 : d.tm.year = c.y) (h2 : d.tm.mon = c.m) (h3 : d.tm.mday = c.d) (h4 : d.tm.hour = t.h)
    (h5 : d.tm.min = t.mi) (h6 : d.tm.sec = t.s) (h7 : d.fSec = t.us) (h : c.Real)
    (hh : 0 ≤ t.h ∧ t.h ≤ 99) (hmi : 0 ≤ t.mi ∧ t.mi ≤ 99)
    (hs : 0 ≤ t.s ∧ t.s ≤ 99) (hu : 0 ≤ t.us ∧ t.us ≤ 1000000) :
    if TsRange (instant c t) then Timestamp.ofDec p d = .ok ⟨instant c t⟩
    else (Timestamp.ofDec p d).IsErr := by
  obtain ⟨y, m, dd⟩ := c
  obtain ⟨th, tmi, ts, tus⟩ := t
  simp only at h1 h2 h3 h4 h5 h6 h7 hh hmi hs hu
  have hb := real_bounds h
  simp only at hb
  unfold Timestamp.ofDec
  rw [ht]
  simp only
  have key : (TsRange (instant ⟨d.tm.year, d.tm.mon, d.tm.mday⟩ ⟨d.tm.hour, d.tm.min, d.tm.sec, d.fSec⟩) →
      d.tm.toTimestamp p d.fSec =
        .ok (instant ⟨d.tm.year, d.tm.mon, d.tm.mday⟩ ⟨d.tm.hour, d.tm.min, d.tm.sec, d.fSec⟩)) ∧
      (¬ TsRange (instant ⟨d.tm.year, d.tm.mon, d.tm.mday⟩ ⟨d.tm.hour, d.tm.min, d.tm.sec, d.fSec⟩) →
      (d.tm.toTimestamp p d.fSec).IsErr) := by
    by_cases hv : isValidJulian d.tm.year d.tm.mon = true
    · exact toTimestamp_eq p d.tm d.fSec (by omega) (by omega) hv (by omega) (by omega) (by omega) (by omega)
    · have hn := not_tsRange_wide h (t := ⟨th, tmi, ts, tus⟩)
        (by unfold Clock.micros; simp only; omega) (by rw [← h1, ← h2]; exact hv)
      rw [h1, h2, h3, h4, h5, h6, h7]
      refine ⟨fun h => absurd h hn, fun _ => ?_⟩
      unfold PgTime.toTimestamp
      rw [if_pos (by simpa using hv)]
      exact ⟨_, rfl⟩
  rw [h1, h2, h3, h4, h5, h6, h7] at key
  rw [h7]
  by_cases hr : TsRange (instant ⟨y, m, dd⟩ ⟨th, tmi, ts, tus⟩)
  · rw [if_pos hr, key.1 hr]; rfl
  · rw [if_neg hr]
    obtain ⟨e, he⟩ := key.2 hr
    rw [he]; exact ⟨e, rfl⟩

end Pg
