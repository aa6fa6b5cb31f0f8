import Verif.Lemmas.ErrKinds
import Verif.Props.NoPanic
import Verif.Props.Dates

/-!
# C92: what kind of error a call returns

A `DateTimeError` is `Empty`, `Invalid` or `Overflow`, which its text shows.
-/

namespace Pg

variable {p : Profile}

theorem scanField_ne (u : TokenField) (c : Nat) (s : Bytes) : scanField u c s ≠ .err .empty := by
  unfold scanField
  refine Res.ne_ite (Res.ne_ok _) (Res.ne_ite (Res.ne_ok _) (Res.ne_ite ?_ ?_))
  · unfold scanAlpha
    refine Res.ne_bind ?_ fun _ => ?_
    · unfold alphaIsDate
      split
      · exact Res.ne_ok _
      · refine Res.ne_ite (Res.ne_ok _) (Res.ne_ite ?_ (Res.ne_ok _))
        rw [searchDate_eq]
        exact Res.ne_ok _
    · kindly
  · unfold scanSign; kindly

theorem scanLoop_ne (u : TokenField) (n : Nat) (s : Bytes) (cap nf : Nat) : scanLoop u n s cap nf ≠ .err .empty := by
  have h := scanField_ne
  induction n generalizing s cap nf with
  | zero => exact Res.ne_ok _
  | succ n ih =>
    unfold scanLoop
    split
    · exact Res.ne_ok _
    · split
      · exact Res.ne_inv
      · split
        · split
          · exact Res.ne_panic
          · refine Res.ne_bind (h _ _ _) fun x => ?_
            obtain ⟨f, r⟩ := x
            dsimp only
            split
            · exact Res.ne_panic
            · exact Res.ne_bind (ih _ _ _) fun _ => Res.ne_ok _
        · split
          · exact ih _ _ _
          · exact Res.ne_inv

theorem scan_ne {u : TokenField} {s : Bytes} (h : s ≠ []) : scan u s ≠ .err .empty := by
  cases s with
  | nil => exact absurd rfl h
  | cons a s => exact scanLoop_ne _ _ _ _ _

theorem full_of_scan {σ α : Type} {u : TokenField} {s : Bytes} {f : List Field → St σ α} (h : ∀ l, Full (f l)) (c : σ) :
    ((St.lift (scan u s) >>= f) c).1 = .err .empty ↔ s = [] := by
  constructor
  · intro he
    by_contra hs
    exact (Full.bind (Full.lift (scan_ne hs)) h).run c he
  · rintro rfl
    rw [St.bind_run, St.lift_run]; rfl

/-- The only error a call can return. -/
structure Res.Only {α : Type} (e : Err) (r : Res α) : Prop where
  kind : ∀ e', r = .err e' → e' = e

namespace Res.Only
variable {α β : Type} {e : Err}

theorem ok (a : α) : Only e (Res.ok a) := ⟨fun _ h => by cases h⟩
theorem pure (a : α) : Only e (Pure.pure a : Res α) := ⟨fun _ h => by cases h⟩
theorem err : Only e (Res.err e : Res α) := ⟨fun _ h => by cases h; rfl⟩
theorem panic : Only e (Res.panic : Res α) := ⟨fun _ h => by cases h⟩
theorem bind {r : Res α} {f : α → Res β} (h : Only e r) (hf : ∀ a, Only e (f a)) : Only e (r >>= f) := by
  cases r with
  | ok a => exact hf a
  | err e => exact ⟨fun e' h' => by cases h'; exact h.kind _ rfl⟩
  | panic => exact panic
theorem chk32 (x : Int) : Only e (Pg.chk32 p x) := by
  unfold Pg.chk32; constructor; intro e'; repeat' split
  all_goals (intro h; cases h)
theorem chk64 (x : Int) : Only e (Pg.chk64 p x) := by
  unfold Pg.chk64; constructor; intro e'; repeat' split
  all_goals (intro h; cases h)
theorem chkU32 (x : Int) : Only e (Pg.chkU32 p x) := by
  unfold Pg.chkU32; constructor; intro e'; repeat' split
  all_goals (intro h; cases h)

end Res.Only

/-- Goes through a computation. -/
macro "onlykind" : tactic => `(tactic| repeat' first
  | with_reducible exact Res.Only.ok _
  | with_reducible exact Res.Only.pure _
  | with_reducible exact Res.Only.err
  | with_reducible exact Res.Only.panic
  | with_reducible exact Res.Only.chk32 _
  | with_reducible exact Res.Only.chk64 _
  | with_reducible exact Res.Only.chkU32 _
  | with_reducible assumption
  | with_reducible refine Res.Only.bind ?_ (fun _ => ?_)
  | split
  | dsimp only
  | with_reducible solve_by_elim (maxDepth := 2))

variable {e : Err}

theorem date2julian_only (y m d : Int) : (date2julian p y m d).Only e := by unfold date2julian; onlykind
theorem julian2date_only (j : Int) : (julian2date p j).Only e := by unfold julian2date; onlykind
theorem date2time_only (j : Int) : (date2time p j).Only e := by unfold date2time; onlykind
theorem daysOfMonth_only (y m : Int) : (daysOfMonth y m).Only e := by unfold daysOfMonth; onlykind
theorem validateDate_only (tm : PgTime) (fMask : Nat) (a b c : Bool) : (tm.validateDate p fMask a b c).Only .overflow := by
  have h1 := @date2julian_only p .overflow
  have h2 := @julian2date_only p .overflow
  have h3 := @daysOfMonth_only .overflow
  unfold PgTime.validateDate PgTime.validateYear PgTime.validateDoy PgTime.validateMonthDay
  onlykind
theorem clockMicros_only (h m : Int) (s : F64) : (clockMicros p h m s).Only e := by unfold clockMicros; onlykind
theorem cascade_only (m d : F64) (rm rd : Int) : (Interval.cascade p m d rm rd).Only e := by
  unfold Interval.cascade Interval.carryDays; onlykind
theorem isoWeek_only (y m d : Int) : (dateToIsoWeek p y m d).Only e := by
  have h1 := @date2julian_only p e
  unfold dateToIsoWeek isoStart isoWeek1 julianToWeekDay
  onlykind
theorem isoYear_only (y m d : Int) : (dateToIsoYear p y m d).Only e := by
  have h1 := @date2julian_only p e
  unfold dateToIsoYear isoStart isoWeek1 julianToWeekDay
  onlykind
theorem timeToPg_only (t : Time) : (t.toPgtime p).Only e := by unfold Time.toPgtime; onlykind

end Pg

namespace Props
open Pg Spec

/-- **C92, texts.** The error `Empty` is returned for the text without bytes and for no other text, by the four parsers, in
both builds, whatever the thread has parsed before: not even for a text of blanks. -/
theorem C92_empty (p : Profile) (u : TokenField) (c : Caches) (hc : c.Ok) (s : Bytes) (typmod : Int) (order : DateOrder)
    (style : IntervalStyle) :
    (Date.tryFromStr p u c s order = .err .empty ↔ s = []) ∧
    (Time.tryFromStr p u c s typmod order = .err .empty ↔ s = []) ∧
    (Timestamp.tryFromStr p u c s typmod order = .err .empty ↔ s = []) ∧
    (Interval.tryFromStr p u c s typmod style = .err .empty ↔ s = []) := by
  refine ⟨?_, ?_, ?_, ?_⟩
  · unfold Date.tryFromStr
    rw [(same_date p u order s c hc).1]
    exact full_of_scan (fun l => Full.bind (Full.runLocal (decodeDateTime_full _ _)) fun a => Full.lift (dateOfDec_ne _)) _
  · unfold Time.tryFromStr
    rw [(same_time p u typmod order s c hc).1]
    exact full_of_scan (fun l => Full.bind (Full.runLocal (decodeTimeOnly_full _ _)) fun a =>
      Full.bind (Full.lift (timeOfPg_ne _ _)) fun _ => Full.lift (timeAdjust_ne _ _)) _
  · unfold Timestamp.tryFromStr
    rw [(same_timestamp p u typmod order s c hc).1]
    exact full_of_scan (fun l => Full.bind (Full.runLocal (decodeDateTime_full _ _)) fun a =>
      Full.bind (Full.lift (tsOfDec_ne _)) fun _ => Full.lift (tsAdjust_ne _ _)) _
  · unfold Interval.tryFromStr
    rw [(same_interval p u typmod style s c hc).1]
    exact full_of_scan (fun l => Full.bind (Full.runLocal (Full.orElse (decodeInterval_full _ _ _)
      (Full.noLook (decodeIsoInterval_full _)))) fun a => Full.lift (ivOfDec_ne _ _)) _

/-- A text of blanks, and a text of a byte that is in no field, are refused with the other kind of error. -/
example : Date.tryFromStr .debug .number Caches.new b!"   " .ymd = .err .invalid ∧
    Interval.tryFromStr .debug .number Caches.new b!"!" (-1) .postgres = .err .invalid ∧
    Date.tryFromStr .debug .number Caches.new b!"2024-13-01" .ymd = .err .overflow := by
  refine ⟨?_, ?_, ?_⟩ <;> decide +kernel

/-- **C92, constructors.** The constructors fail with `Overflow` only, for any arguments. -/
theorem C92_constructors (p : Profile) (e : Err) (y mo w d h mi : Int) (s : F64) :
    (Date.tryFromYmd p y mo d = .err e → e = .overflow) ∧
    (Time.tryFromHms p h mi s = .err e → e = .overflow) ∧
    (Timestamp.tryFromYmdHms p y mo d h mi s = .err e → e = .overflow) ∧
    (Interval.tryFromYmwdHms y mo w d h mi s = .err e → e = .overflow) := by
  have h1 := @validateDate_only p
  have h2 := @date2julian_only p .overflow
  have h3 := @clockMicros_only p .overflow
  refine ⟨fun h => Res.Only.kind ?_ e h, fun h => Res.Only.kind ?_ e h, fun h => Res.Only.kind ?_ e h,
    fun h => Res.Only.kind ?_ e h⟩
  · unfold Date.tryFromYmd Date.absYear; onlykind
  · unfold Time.tryFromHms; onlykind
  · unfold Timestamp.tryFromYmdHms Timestamp.ofDayTime; onlykind
  · unfold Interval.tryFromYmwdHms; onlykind

/-- Each constructor does fail. -/
example : Date.tryFromYmd .debug 2023 2 29 = .err .overflow ∧ Time.tryFromHms .debug 24 0 (.fin 1) = .err .overflow ∧
    Timestamp.tryFromYmdHms .debug 294277 1 1 0 0 (.fin 0) = .err .overflow ∧
    Interval.tryFromYmwdHms 0 0 0 0 0 0 .nan = .err .overflow := by
  refine ⟨?_, ?_, ?_, ?_⟩ <;> decide +kernel

/-- **C92, interval arithmetic.** Sums, differences, negations and products of intervals fail with `Overflow` only; a
quotient fails with `Invalid`, for a zero divisor only. -/
theorem C92_interval (p : Profile) (e : Err) (a b : Interval) (f : F64) :
    (a.addInterval b = .err e → e = .overflow) ∧ (a.subInterval b = .err e → e = .overflow) ∧
    (a.negate = .err e → e = .overflow) ∧ (a.mulF64 p f = .err e → e = .overflow) ∧
    (a.divF64 p f = .err e ↔ e = .invalid ∧ f = .fin 0) := by
  have h1 := @cascade_only p .overflow
  refine ⟨fun h => Res.Only.kind ?_ e h, fun h => Res.Only.kind ?_ e h, fun h => Res.Only.kind ?_ e h,
    fun h => Res.Only.kind ?_ e h, ?_⟩
  · unfold Interval.addInterval; onlykind
  · unfold Interval.subInterval; onlykind
  · unfold Interval.negate; onlykind
  · unfold Interval.mulF64; onlykind
  · unfold Interval.divF64
    by_cases hf : f = .fin 0
    · rw [if_pos hf]
      constructor
      · intro h; cases h; exact ⟨rfl, hf⟩
      · rintro ⟨rfl, -⟩; rfl
    · rw [if_neg hf]
      constructor
      · intro h
        have hk : ∀ e', (e = e') := fun e' => Res.Only.kind (e := e') (by
          refine Res.Only.bind (cascade_only _ _ _ _) fun _ => Res.Only.ok _) e h
        exact absurd ((hk .invalid).symm.trans (hk .overflow)) (by decide)
      · rintro ⟨-, h⟩; exact absurd h hf

example : (⟨2147483647, 0, 0⟩ : Interval).addInterval ⟨1, 0, 0⟩ = .err .overflow ∧
    (⟨-2147483648, 0, 0⟩ : Interval).negate = .err .overflow ∧
    (⟨-2147483648, 0, 0⟩ : Interval).mulF64 .debug (.fin 2) = .err .overflow ∧
    (⟨12, 0, 0⟩ : Interval).divF64 .debug (.fin 0) = .err .invalid ∧
    (⟨12, 0, 0⟩ : Interval).divF64 .debug (.fin 2) = .ok ⟨6, 0, 0⟩ := by
  refine ⟨?_, ?_, ?_, ?_, ?_⟩ <;> decide +kernel

/-- **C92, fields.** Asking for a field fails with `Invalid` only: of a time, whatever it is; of a timestamp, if it is one
of the type or infinite. -/
theorem C92_fields (p : Profile) (e : Err) (ty : FieldType) (unit : DateUnit) :
    (∀ t : Time, t.datePart p ty unit = .err e → e = .invalid) ∧
    (∀ t : Timestamp, TsRange t.v ∨ t = Timestamp.BEGIN ∨ t = Timestamp.END → t.datePart p ty unit = .err e → e = .invalid) := by
  refine ⟨fun t h => Res.Only.kind ?_ e h, fun t ht h => Res.Only.kind ?_ e h⟩
  · have := @timeToPg_only p .invalid
    unfold Time.datePart Time.fieldPart; onlykind
  · unfold Timestamp.datePart
    split
    · unfold Timestamp.infinitePart; onlykind
    · rename_i hi
      have ht : TsRange t.v := by
        rcases ht with ht | rfl | rfl
        · exact ht
        · exact absurd rfl hi
        · exact absurd rfl hi
      obtain ⟨c, -, -, -, -, hf⟩ := fields_spec p ht
      have h1 := @isoWeek_only p .invalid
      have h2 := @isoYear_only p .invalid
      have h3 := @date2julian_only p .invalid
      split
      · rw [hf]
        simp only [Res.bind_ok]
        unfold Timestamp.fieldPart Timestamp.partQuarter Timestamp.partOfInt Timestamp.partYear Timestamp.partDecade
          Timestamp.partCentury Timestamp.partMillennium Timestamp.partJulian Timestamp.partDow Timestamp.partDoy julianToWeekDay
        onlykind
      · exact Res.Only.err

example : (⟨0⟩ : Time).datePart .debug .unit .day = .err .invalid ∧
    (⟨0⟩ : Timestamp).datePart .debug .epoch .epoch = .err .invalid ∧
    Timestamp.BEGIN.datePart .debug .unit .delta = .err .invalid := by
  refine ⟨?_, ?_, ?_⟩ <;> decide +kernel

/-- **C92, days.** Which error days beyond the range of dates give: `add_days` always `Overflow`; `sub_days` says `Overflow`
only if the number of days does not fit in 32 bits, and `Invalid` otherwise. -/
theorem C92_days (a : Date) (n : Int) (ha : DateRange a.v) :
    (a.addDays n = .err .overflow ↔ ¬ DateRange (a.v + n)) ∧ (a.addDays n ≠ .err .invalid) ∧
    (a.subDays n = .err .overflow ↔ ¬ In32 (a.v - n)) ∧
    (a.subDays n = .err .invalid ↔ ¬ DateRange (a.v - n) ∧ In32 (a.v - n)) := by
  have hi : a.isInfinite = false := by
    rw [dateRange_iff] at ha; unfold Date.isInfinite; simp; omega
  simp only [dateRange_iff] at *
  have hv : ∀ d, Date.isValidDate d = true ↔ -2451545 ≤ d ∧ d < 2145031949 := by
    intro d; unfold Date.isValidDate; simp only [Bool.and_eq_true, decide_eq_true_eq]; omega
  have hr : ∀ d : Int, -2451545 ≤ d ∧ d < 2145031949 → In32 d := by intro d h; unfold In32; omega
  unfold Date.addDays Date.subDays checked32
  simp only [hi, Bool.false_eq_true, if_false]
  refine ⟨?_, ?_, ?_, ?_⟩
  all_goals
    repeat' split
  all_goals simp_all
  all_goals first | done | (have h := ‹In32 _ ∧ _ = _›; exact h.2 ▸ h.1) |
    (intro h; by_contra hc; exact ‹¬ In32 _› (hr _ h (by omega)))

example : DateRange 2145031948 ∧ ¬ DateRange (2145031948 + 1) ∧ DateRange (-2451545) ∧ ¬ DateRange (-2451545 - 1) ∧
    In32 (-2451545 - 1) := by decide

/-- **C92 is violated for results outside the range:** where adding a negative number of days to a date says `Overflow`,
subtracting the positive number says `Invalid`; and a timestamp beyond the range, which the constructor refuses with
`Overflow`, is `Invalid` if a time of day or an interval of microseconds leads to it. -/
theorem C92_range_violated (p : Profile) :
    (∀ a : Date, ∀ n : Int, DateRange a.v → ¬ DateRange (a.v - n) → In32 (a.v - n) →
      a.addDays (-n) = .err .overflow ∧ a.subDays n = .err .invalid) ∧
    (∀ t : Timestamp, ∀ d : Int, TsRange t.v → ¬ TsRange (t.v + d) → In64 (t.v + d) →
      t.addInterval p ⟨0, 0, d⟩ = .err .invalid) := by
  refine ⟨fun a n ha hn hi => ⟨((C92_days a (-n) ha).1).2 ?_, ((C92_days a n ha).2.2.2).2 ⟨hn, hi⟩⟩, fun t d ht hd hi => ?_⟩
  · rwa [show a.v + -n = a.v - n by omega]
  · rw [tsRange_iff] at ht hd
    have hf : t.isInfinite = false := by unfold Timestamp.isInfinite; simp; omega
    have hv : isValidTimestamp (t.v + d) = false := by
      unfold isValidTimestamp
      rw [Bool.eq_false_iff]
      simp only [ne_eq, Bool.and_eq_true, decide_eq_true_eq]
      exact hd
    unfold Timestamp.addInterval Timestamp.monthStep Timestamp.dayStep
    simp only [hf, Bool.false_eq_true, if_false, ne_eq, not_true_eq_false, Res.bind_ok]
    rw [wrap64_of_in hi, hv]
    rfl

/-- The day before the first one; the microsecond after the last one, added and constructed. -/
example : (⟨-2451545⟩ : Date).addDays (-1) = .err .overflow ∧ (⟨-2451545⟩ : Date).subDays 1 = .err .invalid ∧
    (⟨9223371331199999999⟩ : Timestamp).addInterval .debug ⟨0, 0, 1⟩ = .err .invalid ∧
    Timestamp.tryFromYmdHms .debug 294277 1 1 0 0 (.fin 0) = .err .overflow := by
  refine ⟨?_, ?_, ?_, ?_⟩ <;> decide +kernel

end Props
