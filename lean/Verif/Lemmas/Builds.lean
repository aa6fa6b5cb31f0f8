import Verif.Model.Serde
import Verif.Model.Construct
import Verif.Model.DatePart

/-! # A debug build and a release build

`Le a b`: computation `a` panics, or gives just what `b` gives. The two builds of every function of
the model are so related, because overflow checks are the only difference between them. -/

namespace Pg

/-- `a` panics or is `b`. -/
class Res.Le {α : Type} (a b : Res α) : Prop where
  out : a = .panic ∨ a = b

/-- From every state `a` panics or does what `b` does. -/
class St.Le {σ α : Type} (a b : St σ α) : Prop where
  out : ∀ s, (a s).1 = .panic ∨ a s = b s

/-- `a` panics or is `b`. -/
class De.Le {α : Type} (a b : De α) : Prop where
  out : a = .panic ∨ a = b

theorem Res.le_refl {α : Type} (a : Res α) : Res.Le a a := ⟨.inr rfl⟩
theorem St.le_refl {σ α : Type} (a : St σ α) : St.Le a a := ⟨fun _ => .inr rfl⟩
theorem De.le_refl {α : Type} (a : De α) : De.Le a a := ⟨.inr rfl⟩

instance Res.le_bind {α β : Type} {a b : Res α} {f g : α → Res β} [h : Res.Le a b] [hf : ∀ x, Res.Le (f x) (g x)] :
    Res.Le (a >>= f) (b >>= g) := by
  rcases h.out with h | h
  · subst h; exact ⟨.inl rfl⟩
  · subst h
    cases a with
    | ok x => exact hf x
    | err e => exact ⟨.inr rfl⟩
    | panic => exact ⟨.inl rfl⟩

instance St.le_bind {σ α β : Type} {a b : St σ α} {f g : α → St σ β} [h : St.Le a b]
    [hf : ∀ x, St.Le (f x) (g x)] : St.Le (a >>= f) (b >>= g) := by
  refine ⟨fun s => ?_⟩
  show (St.bind a f s).1 = .panic ∨ St.bind a f s = St.bind b g s
  unfold St.bind
  rcases h.out s with h | h
  · left; revert h; rcases a s with ⟨_ | _ | _, s'⟩ <;> intro h <;> cases h; rfl
  · rw [← h]
    rcases a s with ⟨x | _ | _, s'⟩
    · exact (hf x).out s'
    · exact .inr rfl
    · exact .inl rfl

theorem Res.le_ite {α : Type} {c : Prop} [Decidable c] {a b a' b' : Res α} (h : Res.Le a a') (h' : Res.Le b b') :
    Res.Le (if c then a else b) (if c then a' else b') := by
  by_cases hc : c
  · rwa [if_pos hc, if_pos hc]
  · rwa [if_neg hc, if_neg hc]

theorem St.le_ite {σ α : Type} {c : Prop} [Decidable c] {a b a' b' : St σ α} (h : St.Le a a') (h' : St.Le b b') :
    St.Le (if c then a else b) (if c then a' else b') := by
  by_cases hc : c
  · rwa [if_pos hc, if_pos hc]
  · rwa [if_neg hc, if_neg hc]

instance St.le_lift {σ α : Type} {a b : Res α} [h : Res.Le a b] : St.Le (St.lift a : St σ α) (St.lift b) := by
  refine ⟨fun s => ?_⟩
  rcases h.out with h | h
  · left; exact h
  · right; rw [h]

instance St.le_zoom {σ τ α : Type} {proj : σ → τ} {put : τ → σ → σ} {a b : St τ α} [h : St.Le a b] :
    St.Le (St.zoom proj put a) (St.zoom proj put b) := by
  refine ⟨fun s => ?_⟩
  unfold St.zoom
  rcases h.out (proj s) with h | h
  · left; exact h
  · right; rw [h]

instance St.le_noLook {σ C α : Type} {a b : St σ α} [h : St.Le a b] :
    St.Le (noLook a : St (σ × C) α) (noLook b) := by
  refine ⟨fun s => ?_⟩
  unfold noLook
  rcases h.out s.1 with h | h
  · left; exact h
  · right; rw [h]

instance St.le_ignore {σ α : Type} {a b : St σ α} [h : St.Le a b] : St.Le (St.ignore a) (St.ignore b) := by
  refine ⟨fun s => ?_⟩
  unfold St.ignore
  rcases h.out s with h | h
  · left; revert h; rcases a s with ⟨_ | _ | _, s'⟩ <;> intro h <;> cases h; rfl
  · right; rw [h]

instance St.le_orElse {σ α : Type} {a b a' b' : St σ α} [h : St.Le a b] [h' : St.Le a' b'] :
    St.Le (St.orElse a a') (St.orElse b b') := by
  refine ⟨fun s => ?_⟩
  unfold St.orElse
  rcases h.out s with h | h
  · left; revert h; rcases a s with ⟨_ | _ | _, s'⟩ <;> intro h <;> cases h; rfl
  · rw [← h]
    rcases a s with ⟨x | e | _, s'⟩
    · exact .inr rfl
    · cases e
      · exact .inr rfl
      · exact h'.out s'
      · exact .inr rfl
    · exact .inl rfl

instance St.le_runLocal {σ C α : Type} {s0 : σ} {a b : St (σ × C) α} [h : St.Le a b] :
    St.Le (runLocal s0 a) (runLocal s0 b) := by
  refine ⟨fun c => ?_⟩
  unfold runLocal
  rcases h.out (s0, c) with h | h
  · left; revert h; rcases a (s0, c) with ⟨_ | _ | _, s'⟩ <;> intro h <;> cases h; rfl
  · right; rw [h]

instance St.le_fst {σ α : Type} {a b : St σ α} {s : σ} [h : St.Le a b] : Res.Le (a s).1 (b s).1 := by
  rcases h.out s with h | h
  · exact ⟨.inl h⟩
  · exact ⟨.inr (by rw [h])⟩

instance De.le_custom {α : Type} {a b : Res α} [h : Res.Le a b] : De.Le (De.custom a) (De.custom b) := by
  rcases h.out with h | h
  · subst h; exact ⟨.inl rfl⟩
  · subst h; exact ⟨.inr rfl⟩

instance chk32_le (x : Int) : Res.Le (chk32 .debug x) (chk32 .release x) := by
  unfold chk32; split
  · exact ⟨.inr rfl⟩
  · exact ⟨.inl rfl⟩
instance chk64_le (x : Int) : Res.Le (chk64 .debug x) (chk64 .release x) := by
  unfold chk64; split
  · exact ⟨.inr rfl⟩
  · exact ⟨.inl rfl⟩
instance chkU32_le (x : Int) : Res.Le (chkU32 .debug x) (chkU32 .release x) := by
  unfold chkU32; split
  · exact ⟨.inr rfl⟩
  · exact ⟨.inl rfl⟩

/-- Goes through a computation in both builds at once. -/
macro "agree" : tactic => `(tactic| repeat' first
  | with_reducible exact Res.le_refl _
  | with_reducible exact St.le_refl _
  | with_reducible exact De.le_refl _
  | infer_instance
  | refine Res.le_ite ?_ ?_
  | refine St.le_ite ?_ ?_
  | refine @Res.le_bind _ _ _ _ _ _ ?_ (fun _ => ?_)
  | refine @St.le_bind _ _ _ _ _ _ _ ?_ (fun _ => ?_)
  | refine @St.le_noLook _ _ _ _ _ ?_
  | refine @St.le_lift _ _ _ _ ?_
  | refine @St.le_zoom _ _ _ _ _ _ _ ?_
  | refine @St.le_runLocal _ _ _ _ _ _ ?_
  | refine @St.le_ignore _ _ _ _ ?_
  | refine @St.le_orElse _ _ _ _ _ _ ?_ ?_
  | with_reducible refine @St.le_fst _ _ _ _ _ ?_
  | split
  | dsimp only)


/-! ## Calendar -/

instance date2julian_le (y m d : Int) :
    Res.Le (date2julian .debug y m d) (date2julian .release y m d) := by
  unfold date2julian; agree
instance julian2date_le (jd : Int) :
    Res.Le (julian2date .debug jd) (julian2date .release jd) := by
  unfold julian2date; agree
instance julianToWeekDay_le (date : Int) :
    Res.Le (julianToWeekDay .debug date) (julianToWeekDay .release date) := by
  unfold julianToWeekDay; agree

/-! ## PgTime -/

instance PgTime_validateYear_le (tm : PgTime) (fMask : Nat) (isJulian is2digits bc : Bool) :
    Res.Le (PgTime.validateYear .debug tm fMask isJulian is2digits bc) (PgTime.validateYear .release tm fMask isJulian is2digits bc) := by
  unfold PgTime.validateYear; agree
instance PgTime_validateDoy_le (tm : PgTime) (fMask : Nat) :
    Res.Le (PgTime.validateDoy .debug tm fMask) (PgTime.validateDoy .release tm fMask) := by
  unfold PgTime.validateDoy; agree
instance PgTime_validateDate_le (tm : PgTime) (fMask : Nat) (isJulian is2digits bc : Bool) :
    Res.Le (PgTime.validateDate .debug tm fMask isJulian is2digits bc) (PgTime.validateDate .release tm fMask isJulian is2digits bc) := by
  unfold PgTime.validateDate; agree
instance time2t_le (hour min sec fsec : Int) :
    Res.Le (time2t .debug hour min sec fsec) (time2t .release hour min sec fsec) := by
  unfold time2t; agree
instance PgTime_toTimestamp_le (tm : PgTime) (fsec : Int) :
    Res.Le (PgTime.toTimestamp .debug tm fsec) (PgTime.toTimestamp .release tm fsec) := by
  unfold PgTime.toTimestamp; agree
instance timestampModulo_le (t perUnit : Int) :
    Res.Le (timestampModulo .debug t perUnit) (timestampModulo .release t perUnit) := by
  unfold timestampModulo; agree
instance date2time_le (jd : Int) :
    Res.Le (date2time .debug jd) (date2time .release jd) := by
  unfold date2time; agree
instance dayNormalize_le (time date : Int) :
    Res.Le (dayNormalize .debug time date) (dayNormalize .release time date) := by
  unfold dayNormalize; agree
instance timestamp2time_le (dt : Int) :
    Res.Le (timestamp2time .debug dt) (timestamp2time .release dt) := by
  unfold timestamp2time; agree
instance isoWeek1_le (year : Int) :
    Res.Le (isoWeek1 .debug year) (isoWeek1 .release year) := by
  unfold isoWeek1; agree
instance isoStart_le (year dayn : Int) :
    Res.Le (isoStart .debug year dayn) (isoStart .release year dayn) := by
  unfold isoStart; agree
instance dateToIsoWeek_le (year mon mday : Int) :
    Res.Le (dateToIsoWeek .debug year mon mday) (dateToIsoWeek .release year mon mday) := by
  unfold dateToIsoWeek; agree
instance isoWeekToJulian_le (year week : Int) :
    Res.Le (isoWeekToJulian .debug year week) (isoWeekToJulian .release year week) := by
  unfold isoWeekToJulian; agree
instance isoWeekToDate_le (woy : Int) (tm : PgTime) :
    Res.Le (isoWeekToDate .debug woy tm) (isoWeekToDate .release woy tm) := by
  unfold isoWeekToDate; agree
instance dateToIsoYear_le (year mon mday : Int) :
    Res.Le (dateToIsoYear .debug year mon mday) (dateToIsoYear .release year mon mday) := by
  unfold dateToIsoYear; agree
instance truncTimestampQuarter_le (s : TmF) :
    Res.Le (truncTimestampQuarter .debug s) (truncTimestampQuarter .release s) := by
  unfold truncTimestampQuarter; agree
instance truncTimestampYear_le (s : TmF) :
    Res.Le (truncTimestampYear .debug s) (truncTimestampYear .release s) := by
  unfold truncTimestampYear; agree
instance decadeStart_le (year : Int) :
    Res.Le (decadeStart .debug year) (decadeStart .release year) := by
  unfold decadeStart; agree
instance truncTimestampDecade_le (s : TmF) :
    Res.Le (truncTimestampDecade .debug s) (truncTimestampDecade .release s) := by
  unfold truncTimestampDecade; agree
instance centuryStart_le (year : Int) :
    Res.Le (centuryStart .debug year) (centuryStart .release year) := by
  unfold centuryStart; agree
instance truncTimestampCentury_le (s : TmF) :
    Res.Le (truncTimestampCentury .debug s) (truncTimestampCentury .release s) := by
  unfold truncTimestampCentury; agree
instance millenniumStart_le (year : Int) :
    Res.Le (millenniumStart .debug year) (millenniumStart .release year) := by
  unfold millenniumStart; agree
instance truncTimestampMillennium_le (s : TmF) :
    Res.Le (truncTimestampMillennium .debug s) (truncTimestampMillennium .release s) := by
  unfold truncTimestampMillennium; agree
instance weekYear_le (woy mon year : Int) :
    Res.Le (weekYear .debug woy mon year) (weekYear .release woy mon year) := by
  unfold weekYear; agree
instance truncTimestampWeek_le (s : TmF) :
    Res.Le (truncTimestampWeek .debug s) (truncTimestampWeek .release s) := by
  unfold truncTimestampWeek; agree

/-! ## Types -/

instance Interval_timeModulo_le (t unit : Int) :
    Res.Le (Interval.timeModulo .debug t unit) (Interval.timeModulo .release t unit) := by
  unfold Interval.timeModulo; agree
instance Interval_signDayTime_le (month day time : Int) :
    Res.Le (Interval.signDayTime .debug month day time) (Interval.signDayTime .release month day time) := by
  unfold Interval.signDayTime; agree
instance Interval_justifyHours_le (a : Interval) :
    Res.Le (Interval.justifyHours .debug a) (Interval.justifyHours .release a) := by
  unfold Interval.justifyHours; agree
instance Interval_signMonthDay_le (month day time : Int) :
    Res.Le (Interval.signMonthDay .debug month day time) (Interval.signMonthDay .release month day time) := by
  unfold Interval.signMonthDay; agree
instance Interval_justifyDays_le (a : Interval) :
    Res.Le (Interval.justifyDays .debug a) (Interval.justifyDays .release a) := by
  unfold Interval.justifyDays; agree
instance Interval_signMonth_le (month day time : Int) :
    Res.Le (Interval.signMonth .debug month day time) (Interval.signMonth .release month day time) := by
  unfold Interval.signMonth; agree
instance Interval_justifyInterval_le (a : Interval) :
    Res.Le (Interval.justifyInterval .debug a) (Interval.justifyInterval .release a) := by
  unfold Interval.justifyInterval; agree
instance Interval_fromPgtime_le (tm : PgTime) (fsec : Int) :
    Res.Le (Interval.fromPgtime .debug tm fsec) (Interval.fromPgtime .release tm fsec) := by
  unfold Interval.fromPgtime; agree
instance Interval_toPgtime_le (a : Interval) :
    Res.Le (Interval.toPgtime .debug a) (Interval.toPgtime .release a) := by
  unfold Interval.toPgtime; agree
instance Interval_roundScale_le (v scale offset : Int) :
    Res.Le (Interval.roundScale .debug v scale offset) (Interval.roundScale .release v scale offset) := by
  unfold Interval.roundScale; agree
instance Interval_roundTo_le (v : Int) (precision : Int) :
    Res.Le (Interval.roundTo .debug v precision) (Interval.roundTo .release v precision) := by
  unfold Interval.roundTo; agree
instance Interval_adjustByTypmod_le (a : Interval) (typmod : Int) :
    Res.Le (Interval.adjustByTypmod .debug a typmod) (Interval.adjustByTypmod .release a typmod) := by
  unfold Interval.adjustByTypmod; agree
instance Interval_truncate_le (a : Interval) (ty : FieldType) (unit : DateUnit) :
    Res.Le (Interval.truncate .debug a ty unit) (Interval.truncate .release a ty unit) := by
  unfold Interval.truncate; agree
instance Time_fromPgtime_le (tm : PgTime) (fsec : Int) :
    Res.Le (Time.fromPgtime .debug tm fsec) (Time.fromPgtime .release tm fsec) := by
  unfold Time.fromPgtime; agree
instance Time_adjustByTypmod_le (t : Time) (typmod : Int) :
    Res.Le (Time.adjustByTypmod .debug t typmod) (Time.adjustByTypmod .release t typmod) := by
  unfold Time.adjustByTypmod; agree
instance Time_wrapNegative_le (result : Int) :
    Res.Le (Time.wrapNegative .debug result) (Time.wrapNegative .release result) := by
  unfold Time.wrapNegative; agree
instance Time_addInterval_le (t : Time) (span : Interval) :
    Res.Le (Time.addInterval .debug t span) (Time.addInterval .release t span) := by
  unfold Time.addInterval; agree
instance Time_subInterval_le (t : Time) (span : Interval) :
    Res.Le (Time.subInterval .debug t span) (Time.subInterval .release t span) := by
  unfold Time.subInterval; agree
instance Time_toPgtime_le (t : Time) :
    Res.Le (Time.toPgtime .debug t) (Time.toPgtime .release t) := by
  unfold Time.toPgtime; agree
instance Time_ofInterval_le (a : Interval) :
    Res.Le (Time.ofInterval .debug a) (Time.ofInterval .release a) := by
  unfold Time.ofInterval; agree
instance Time_truncate_le (t : Time) (ty : FieldType) (unit : DateUnit) :
    Res.Le (Time.truncate .debug t ty unit) (Time.truncate .release t ty unit) := by
  unfold Time.truncate; agree
instance Timestamp_adjustByTypmod_le (t : Timestamp) (typmod : Int) :
    Res.Le (Timestamp.adjustByTypmod .debug t typmod) (Timestamp.adjustByTypmod .release t typmod) := by
  unfold Timestamp.adjustByTypmod; agree
instance Timestamp_normMonth_le (year mon : Int) :
    Res.Le (Timestamp.normMonth .debug year mon) (Timestamp.normMonth .release year mon) := by
  unfold Timestamp.normMonth; agree
instance Timestamp_addMonths_le (t : Int) (n : Int) :
    Res.Le (Timestamp.addMonths .debug t n) (Timestamp.addMonths .release t n) := by
  unfold Timestamp.addMonths; agree
instance Timestamp_addDays_le (t : Int) (n : Int) :
    Res.Le (Timestamp.addDays .debug t n) (Timestamp.addDays .release t n) := by
  unfold Timestamp.addDays; agree
instance Timestamp_monthStep_le (t n : Int) :
    Res.Le (Timestamp.monthStep .debug t n) (Timestamp.monthStep .release t n) := by
  unfold Timestamp.monthStep; agree
instance Timestamp_dayStep_le (t n : Int) :
    Res.Le (Timestamp.dayStep .debug t n) (Timestamp.dayStep .release t n) := by
  unfold Timestamp.dayStep; agree
instance Timestamp_addInterval_le (t : Timestamp) (span : Interval) :
    Res.Le (Timestamp.addInterval .debug t span) (Timestamp.addInterval .release t span) := by
  unfold Timestamp.addInterval; agree
instance Timestamp_addTime_le (t : Timestamp) (time : Time) :
    Res.Le (Timestamp.addTime .debug t time) (Timestamp.addTime .release t time) := by
  unfold Timestamp.addTime; agree
instance Timestamp_subInterval_le (t : Timestamp) (span : Interval) :
    Res.Le (Timestamp.subInterval .debug t span) (Timestamp.subInterval .release t span) := by
  unfold Timestamp.subInterval; agree
instance Timestamp_subTime_le (t : Timestamp) (time : Time) :
    Res.Le (Timestamp.subTime .debug t time) (Timestamp.subTime .release t time) := by
  unfold Timestamp.subTime; agree
instance Timestamp_subTimestamp_le (a b : Timestamp) :
    Res.Le (Timestamp.subTimestamp .debug a b) (Timestamp.subTimestamp .release a b) := by
  unfold Timestamp.subTimestamp; agree
instance Timestamp_ofDate_le (d : Date) :
    Res.Le (Timestamp.ofDate .debug d) (Timestamp.ofDate .release d) := by
  unfold Timestamp.ofDate; agree
instance Timestamp_subDate_le (t : Timestamp) (d : Date) :
    Res.Le (Timestamp.subDate .debug t d) (Timestamp.subDate .release t d) := by
  unfold Timestamp.subDate; agree
instance Timestamp_borrow_le {chk : Profile → Int → Res Int} [∀ x, Res.Le (chk .debug x) (chk .release x)]
    (unit : Int) (n : Nat) (lo hi : Int) :
    Res.Le (Timestamp.borrow .debug chk unit n lo hi) (Timestamp.borrow .release chk unit n lo hi) := by
  induction n generalizing lo hi with
  | zero => unfold Timestamp.borrow; agree
  | succ n ih => unfold Timestamp.borrow; agree
instance Timestamp_ageDiff_le (a b : PgTime × Int) :
    Res.Le (Timestamp.ageDiff .debug a b) (Timestamp.ageDiff .release a b) := by
  unfold Timestamp.ageDiff; agree
instance Timestamp_ageFlip_le (neg : Bool) (x : Timestamp.AgeTm) :
    Res.Le (Timestamp.ageFlip .debug neg x) (Timestamp.ageFlip .release neg x) := by
  unfold Timestamp.ageFlip; agree
instance Timestamp_ageBorrow_le (my mm : Int) (x : Timestamp.AgeTm) :
    Res.Le (Timestamp.ageBorrow .debug my mm x) (Timestamp.ageBorrow .release my mm x) := by
  unfold Timestamp.ageBorrow; agree
instance Timestamp_age_le (a b : Timestamp) :
    Res.Le (Timestamp.age .debug a b) (Timestamp.age .release a b) := by
  unfold Timestamp.age; agree
instance Timestamp_truncUnit_le (s : TmF) (x1 : DateUnit) :
    Res.Le (Timestamp.truncUnit .debug s x1) (Timestamp.truncUnit .release s x1) := by
  unfold Timestamp.truncUnit; agree
instance Timestamp_truncate_le (t : Timestamp) (ty : FieldType) (unit : DateUnit) :
    Res.Le (Timestamp.truncate .debug t ty unit) (Timestamp.truncate .release t ty unit) := by
  unfold Timestamp.truncate; agree
instance Time_ofTimestamp_le (t : Timestamp) :
    Res.Le (Time.ofTimestamp .debug t) (Time.ofTimestamp .release t) := by
  unfold Time.ofTimestamp; agree
instance Date_absYear_le (y : Int) :
    Res.Le (Date.absYear .debug y) (Date.absYear .release y) := by
  unfold Date.absYear; agree
instance Date_tryFromYmd_le (y m d : Int) :
    Res.Le (Date.tryFromYmd .debug y m d) (Date.tryFromYmd .release y m d) := by
  unfold Date.tryFromYmd; agree
instance Date_fields_le (d : Date) :
    Res.Le (Date.fields .debug d) (Date.fields .release d) := by
  unfold Date.fields; agree
instance Date_subDate_le (a b : Date) :
    Res.Le (Date.subDate .debug a b) (Date.subDate .release a b) := by
  unfold Date.subDate; agree
instance Date_addInterval_le (d : Date) (span : Interval) :
    Res.Le (Date.addInterval .debug d span) (Date.addInterval .release d span) := by
  unfold Date.addInterval; agree
instance Date_subInterval_le (d : Date) (span : Interval) :
    Res.Le (Date.subInterval .debug d span) (Date.subInterval .release d span) := by
  unfold Date.subInterval; agree
instance Date_addTime_le (d : Date) (time : Time) :
    Res.Le (Date.addTime .debug d time) (Date.addTime .release d time) := by
  unfold Date.addTime; agree
instance Date_ofTimestamp_le (t : Timestamp) :
    Res.Le (Date.ofTimestamp .debug t) (Date.ofTimestamp .release t) := by
  unfold Date.ofTimestamp; agree
instance Date_truncate_le (d : Date) (ty : FieldType) (unit : DateUnit) :
    Res.Le (Date.truncate .debug d ty unit) (Date.truncate .release d ty unit) := by
  unfold Date.truncate; agree

/-! ## Construct -/

instance clockMicros_le (h m : Int) (s : F64) :
    Res.Le (clockMicros .debug h m s) (clockMicros .release h m s) := by
  unfold clockMicros; agree
instance Time_tryFromHms_le (h m : Int) (s : F64) :
    Res.Le (Time.tryFromHms .debug h m s) (Time.tryFromHms .release h m s) := by
  unfold Time.tryFromHms; agree
instance Timestamp_tryFromYmdHms_le (y mo d h mi : Int) (s : F64) :
    Res.Le (Timestamp.tryFromYmdHms .debug y mo d h mi s) (Timestamp.tryFromYmdHms .release y mo d h mi s) := by
  unfold Timestamp.tryFromYmdHms; agree
instance Interval_carryDays_le (day : Int) (sec : F64) :
    Res.Le (Interval.carryDays .debug day sec) (Interval.carryDays .release day sec) := by
  unfold Interval.carryDays; agree
instance Interval_cascade_le (m d : F64) (rm rd : Int) :
    Res.Le (Interval.cascade .debug m d rm rd) (Interval.cascade .release m d rm rd) := by
  unfold Interval.cascade; agree
instance Interval_mulF64_le (a : Interval) (f : F64) :
    Res.Le (Interval.mulF64 .debug a f) (Interval.mulF64 .release a f) := by
  unfold Interval.mulF64; agree
instance Interval_divF64_le (a : Interval) (f : F64) :
    Res.Le (Interval.divF64 .debug a f) (Interval.divF64 .release a f) := by
  unfold Interval.divF64; agree

/-! ## DatePart -/

instance Timestamp_partYear_le (year : Int) :
    Res.Le (Timestamp.partYear .debug year) (Timestamp.partYear .release year) := by
  unfold Timestamp.partYear; agree
instance Timestamp_partDecade_le (year : Int) :
    Res.Le (Timestamp.partDecade .debug year) (Timestamp.partDecade .release year) := by
  unfold Timestamp.partDecade; agree
instance Timestamp_partCentury_le (year : Int) :
    Res.Le (Timestamp.partCentury .debug year) (Timestamp.partCentury .release year) := by
  unfold Timestamp.partCentury; agree
instance Timestamp_partMillennium_le (year : Int) :
    Res.Le (Timestamp.partMillennium .debug year) (Timestamp.partMillennium .release year) := by
  unfold Timestamp.partMillennium; agree
instance Timestamp_partJulian_le (tm : PgTime) (fsec : Int) :
    Res.Le (Timestamp.partJulian .debug tm fsec) (Timestamp.partJulian .release tm fsec) := by
  unfold Timestamp.partJulian; agree
instance Timestamp_partDow_le (tm : PgTime) (iso : Bool) :
    Res.Le (Timestamp.partDow .debug tm iso) (Timestamp.partDow .release tm iso) := by
  unfold Timestamp.partDow; agree
instance Timestamp_partDoy_le (tm : PgTime) :
    Res.Le (Timestamp.partDoy .debug tm) (Timestamp.partDoy .release tm) := by
  unfold Timestamp.partDoy; agree
instance Timestamp_partQuarter_le (mon : Int) :
    Res.Le (Timestamp.partQuarter .debug mon) (Timestamp.partQuarter .release mon) := by
  unfold Timestamp.partQuarter; agree
instance Timestamp_fieldPart_le (tm : PgTime) (fsec : Int) (x1 : DateUnit) :
    Res.Le (Timestamp.fieldPart .debug tm fsec x1) (Timestamp.fieldPart .release tm fsec x1) := by
  unfold Timestamp.fieldPart; agree
instance Timestamp_datePart_le (t : Timestamp) (ty : FieldType) (unit : DateUnit) :
    Res.Le (Timestamp.datePart .debug t ty unit) (Timestamp.datePart .release t ty unit) := by
  unfold Timestamp.datePart; agree
instance Date_datePart_le (d : Date) (ty : FieldType) (unit : DateUnit) :
    Res.Le (Date.datePart .debug d ty unit) (Date.datePart .release d ty unit) := by
  unfold Date.datePart; agree
instance Time_datePart_le (t : Time) (ty : FieldType) (unit : DateUnit) :
    Res.Le (Time.datePart .debug t ty unit) (Time.datePart .release t ty unit) := by
  unfold Time.datePart; agree
instance Interval_partQuarter_le (mon : Int) :
    Res.Le (Interval.partQuarter .debug mon) (Interval.partQuarter .release mon) := by
  unfold Interval.partQuarter; agree
instance Interval_fieldPart_le (tm : PgTime) (fsec : Int) (x1 : DateUnit) :
    Res.Le (Interval.fieldPart .debug tm fsec x1) (Interval.fieldPart .release tm fsec x1) := by
  unfold Interval.fieldPart; agree
instance Interval_datePart_le (a : Interval) (ty : FieldType) (unit : DateUnit) :
    Res.Le (Interval.datePart .debug a ty unit) (Interval.datePart .release a ty unit) := by
  unfold Interval.datePart; agree

/-! ## Format -/

instance chkU8_le (x : Int) : Res.Le (chkU8 .debug x) (chkU8 .release x) := by
  unfold chkU8; split
  · exact ⟨.inr rfl⟩
  · exact ⟨.inl rfl⟩
instance negPad_le (n : Nat) (s : Bytes) (x : Int) : Res.Le (negPad .debug n s x) (negPad .release n s x) := by
  induction n generalizing s x with
  | zero => unfold negPad; agree
  | succ n ih => unfold negPad; agree
instance pgLtostrZeropad_le (value : Int) (width : Nat) (s : Bytes) :
    Res.Le (pgLtostrZeropad .debug value width s) (pgLtostrZeropad .release value width s) := by
  unfold pgLtostrZeropad; agree
instance abs32_le (x : Int) :
    Res.Le (abs32 .debug x) (abs32 .release x) := by
  unfold abs32; agree
instance abs64_le (x : Int) :
    Res.Le (abs64 .debug x) (abs64 .release x) := by
  unfold abs64; agree
instance secInt_le (sec : Int) (fill : Bool) (s : Bytes) :
    Res.Le (secInt .debug sec fill s) (secInt .release sec fill s) := by
  unfold secInt; agree
instance fracRest_le (fsec value : Int) (offset n : Nat) (s : Bytes) :
    Res.Le (fracRest .debug fsec value offset n s) (fracRest .release fsec value offset n s) := by
  unfold fracRest; agree
instance appendSeconds_le (sec fsec : Int) (fill : Bool) (s : Bytes) :
    Res.Le (appendSeconds .debug sec fsec fill s) (appendSeconds .release sec fsec fill s) := by
  unfold appendSeconds; agree
instance shownYear_le (year : Int) :
    Res.Le (shownYear .debug year) (shownYear .release year) := by
  unfold shownYear; agree
instance putYear_le (year : Int) (b : Buf) :
    Res.Le (putYear .debug year b) (putYear .release year b) := by
  unfold putYear; agree
instance put2_le (v : Int) (b : Buf) :
    Res.Le (put2 .debug v b) (put2 .release v b) := by
  unfold put2; agree
instance putMonthDay_le (tm : PgTime) (order : DateOrder) (sepD sepM : Nat) (b : Buf) :
    Res.Le (putMonthDay .debug tm order sepD sepM b) (putMonthDay .release tm order sepD sepM b) := by
  unfold putMonthDay; agree
instance putDate_le (tm : PgTime) (order : DateOrder) (style : DateStyle) (b : Buf) :
    Res.Le (putDate .debug tm order style b) (putDate .release tm order style b) := by
  unfold putDate; agree
instance formatDate_le (tm : PgTime) (style : DateStyle) (order : DateOrder) (b : Buf) :
    Res.Le (formatDate .debug tm style order b) (formatDate .release tm style order b) := by
  unfold formatDate; agree
instance Date_format_le (junk : Bytes) (d : Date) (style : DateStyle) (order : DateOrder) :
    Res.Le (Date.format .debug junk d style order) (Date.format .release junk d style order) := by
  unfold Date.format; agree
instance formatTime_le (tm : PgTime) (fsec : Int) (b : Buf) :
    Res.Le (formatTime .debug tm fsec b) (formatTime .release tm fsec b) := by
  unfold formatTime; agree
instance Time_format_le (junk : Bytes) (t : Time) (_style : DateStyle) :
    Res.Le (Time.format .debug junk t _style) (Time.format .release junk t _style) := by
  unfold Time.format; agree
instance putClock_le (tm : PgTime) (fsec : Int) (b : Buf) :
    Res.Le (putClock .debug tm fsec b) (putClock .release tm fsec b) := by
  unfold putClock; agree
instance putDayName_le (tm : PgTime) (order : DateOrder) (b : Buf) :
    Res.Le (putDayName .debug tm order b) (putDayName .release tm order b) := by
  unfold putDayName; agree
instance putDateTime_le (tm : PgTime) (fsec : Int) (order : DateOrder) (style : DateStyle) (b : Buf) :
    Res.Le (putDateTime .debug tm fsec order style b) (putDateTime .release tm fsec order style b) := by
  unfold putDateTime; agree
instance formatDateTime_le (tm : PgTime) (order : DateOrder) (fsec : Int) (style : DateStyle) (b : Buf) :
    Res.Le (formatDateTime .debug tm order fsec style b) (formatDateTime .release tm order fsec style b) := by
  unfold formatDateTime; agree
instance Timestamp_format_le (junk : Bytes) (t : Timestamp) (style : DateStyle) (order : DateOrder) :
    Res.Le (Timestamp.format .debug junk t style order) (Timestamp.format .release junk t style order) := by
  unfold Timestamp.format; agree
instance IvTm_neg_le (x : IvTm) :
    Res.Le (IvTm.neg .debug x) (IvTm.neg .release x) := by
  unfold IvTm.neg; agree
instance putAbs_le (v : Int) (b : Buf) :
    Res.Le (putAbs .debug v b) (putAbs .release v b) := by
  unfold putAbs; agree
instance put2Abs_le (v : Int) (b : Buf) :
    Res.Le (put2Abs .debug v b) (put2Abs .release v b) := by
  unfold put2Abs; agree
instance putSec_le (x : IvTm) (fill : Bool) (b : Buf) :
    Res.Le (putSec .debug x fill b) (putSec .release x fill b) := by
  unfold putSec; agree
instance sqlMixed_le (x : IvTm) (b : Buf) :
    Res.Le (sqlMixed .debug x b) (sqlMixed .release x b) := by
  unfold sqlMixed; agree
instance sqlClock_le (x : IvTm) (b : Buf) :
    Res.Le (sqlClock .debug x b) (sqlClock .release x b) := by
  unfold sqlClock; agree
instance sqlBody_le (hasNeg hasPos std hasYM hasDay : Bool) (x : IvTm) (b : Buf) :
    Res.Le (sqlBody .debug hasNeg hasPos std hasYM hasDay x b) (sqlBody .release hasNeg hasPos std hasYM hasDay x b) := by
  unfold sqlBody; agree
instance putSql_le (x : IvTm) (b : Buf) :
    Res.Le (putSql .debug x b) (putSql .release x b) := by
  unfold putSql; agree
instance isoSec_le (x : IvTm) (b : Buf) :
    Res.Le (isoSec .debug x b) (isoSec .release x b) := by
  unfold isoSec; agree
instance putIso_le (x : IvTm) (b : Buf) :
    Res.Le (putIso .debug x b) (putIso .release x b) := by
  unfold putIso; agree
instance pgClock_le (x : IvTm) (z : Bool × Bool) (b : Buf) :
    Res.Le (pgClock .debug x z b) (pgClock .release x z b) := by
  unfold pgClock; agree
instance putPg_le (x : IvTm) (b : Buf) :
    Res.Le (putPg .debug x b) (putPg .release x b) := by
  unfold putPg; agree
instance verboseValue_le (v : Int) (z : Bool × Bool) (b : Buf) :
    Res.Le (verboseValue .debug v z b) (verboseValue .release v z b) := by
  unfold verboseValue; agree
instance verbosePart_le (v : Int) (units : Bytes) (z : Bool × Bool) (b : Buf) :
    Res.Le (verbosePart .debug v units z b) (verbosePart .release v units z b) := by
  unfold verbosePart; agree
instance verboseSec_le (x : IvTm) (z : Bool × Bool) (b : Buf) :
    Res.Le (verboseSec .debug x z b) (verboseSec .release x z b) := by
  unfold verboseSec; agree
instance putVerbose_le (x : IvTm) (b : Buf) :
    Res.Le (putVerbose .debug x b) (putVerbose .release x b) := by
  unfold putVerbose; agree
instance formatInterval_le (x : IvTm) (style : IntervalStyle) (b : Buf) :
    Res.Le (formatInterval .debug x style b) (formatInterval .release x style b) := by
  unfold formatInterval; agree
instance Interval_format_le (junk : Bytes) (a : Interval) (style : IntervalStyle) :
    Res.Le (Interval.format .debug junk a style) (Interval.format .release junk a style) := by
  unfold Interval.format; agree

/-! ## Decode -/

instance dateToken_le {C : Type} (L : Look C) (field : Bytes) (order : DateOrder) :
    St.Le (dateToken .debug L field order) (dateToken .release L field order) := by
  unfold dateToken; agree
instance labelJulian_le (val : Int) (s : Bytes) :
    St.Le (labelJulian .debug val s) (labelJulian .release val s) := by
  unfold labelJulian; agree
instance labelAssign_le (ty : TokenField) (str : Bytes) (val : Int) (s : Bytes) :
    St.Le (labelAssign .debug ty str val s) (labelAssign .release ty str val s) := by
  unfold labelAssign; agree
instance labelled_le (str : Bytes) :
    St.Le (labelled .debug str) (labelled .release str) := by
  unfold labelled; agree
instance numberToken_le {C : Type} (L : Look C) (str : Bytes) (order : DateOrder) :
    St.Le (numberToken .debug L str order) (numberToken .release L str order) := by
  unfold numberToken; agree
instance dateTimeField_le {C : Type} (L : Look C) (order : DateOrder) (ftypes : List TokenField) (i : Nat) (f : Field) :
    St.Le (dateTimeField .debug L order ftypes i f) (dateTimeField .release L order ftypes i f) := by
  unfold dateTimeField; agree
instance dateTimeLoop_le {C : Type} (L : Look C) (order : DateOrder) (ftypes : List TokenField) (fs : List Field) (i : Nat) :
    St.Le (dateTimeLoop .debug L order ftypes fs i) (dateTimeLoop .release L order ftypes fs i) := by
  induction fs generalizing i with
  | nil => unfold dateTimeLoop; agree
  | cons f fs ih => unfold dateTimeLoop; agree
instance finishFields_le  :
    St.Le (finishFields .debug) (finishFields .release) := by
  unfold finishFields; agree
instance decodeDateTime_le {C : Type} (L : Look C) (order : DateOrder) (fields : List Field) :
    St.Le (decodeDateTime .debug L order fields) (decodeDateTime .release L order fields) := by
  unfold decodeDateTime; agree
instance numberTokenT_le {C : Type} (L : Look C) (order : DateOrder) (ftypes : List TokenField) (i : Nat) (str : Bytes) :
    St.Le (numberTokenT .debug L order ftypes i str) (numberTokenT .release L order ftypes i str) := by
  unfold numberTokenT; agree
instance timeOnlyField_le {C : Type} (L : Look C) (order : DateOrder) (ftypes : List TokenField) (i : Nat) (f : Field) :
    St.Le (timeOnlyField .debug L order ftypes i f) (timeOnlyField .release L order ftypes i f) := by
  unfold timeOnlyField; agree
instance timeOnlyLoop_le {C : Type} (L : Look C) (order : DateOrder) (ftypes : List TokenField) (fs : List Field) (i : Nat) :
    St.Le (timeOnlyLoop .debug L order ftypes fs i) (timeOnlyLoop .release L order ftypes fs i) := by
  induction fs generalizing i with
  | nil => unfold timeOnlyLoop; agree
  | cons f fs ih => unfold timeOnlyLoop; agree
instance decodeTimeOnly_le {C : Type} (L : Look C) (order : DateOrder) (fields : List Field) :
    St.Le (decodeTimeOnly .debug L order fields) (decodeTimeOnly .release L order fields) := by
  unfold decodeTimeOnly; agree

/-! ## DecodeInterval -/

instance onTm_le {α : Type} {a b : St TmF α} [St.Le a b] : St.Le (onTm a) (onTm b) := by
  unfold onTm; agree
instance onTmIso_le {α : Type} {a b : St TmF α} [St.Le a b] : St.Le (onTmIso a) (onTmIso b) := by
  unfold onTmIso; agree
instance adjustFractSeconds_le (frac : F64) (scale : Int) :
    St.Le (adjustFractSeconds .debug frac scale) (adjustFractSeconds .release frac scale) := by
  unfold adjustFractSeconds; agree
instance adjustFractDays_le (frac : F64) (scale : Int) :
    St.Le (adjustFractDays .debug frac scale) (adjustFractDays .release frac scale) := by
  unfold adjustFractDays; agree
instance addFsec_le (x : Int) :
    St.Le (addFsec .debug x) (addFsec .release x) := by
  unfold addFsec; agree
instance addSec_le (x : Int) :
    St.Le (addSec .debug x) (addSec .release x) := by
  unfold addSec; agree
instance addMin_le (x : Int) :
    St.Le (addMin .debug x) (addMin .release x) := by
  unfold addMin; agree
instance addHour_le (x : Int) :
    St.Le (addHour .debug x) (addHour .release x) := by
  unfold addHour; agree
instance addMday_le (x : Int) :
    St.Le (addMday .debug x) (addMday .release x) := by
  unfold addMday; agree
instance addMon_le (x : Int) :
    St.Le (addMon .debug x) (addMon .release x) := by
  unfold addMon; agree
instance addYear_le (x : Int) :
    St.Le (addYear .debug x) (addYear .release x) := by
  unfold addYear; agree
instance signMonths_le (neg : Bool) (val2 : Int) :
    Res.Le (signMonths .debug neg val2) (signMonths .release neg val2) := by
  unfold signMonths; agree
instance yearMonth_le (neg : Bool) (val : Int) (s : Bytes) :
    Res.Le (yearMonth .debug neg val s) (yearMonth .release neg val s) := by
  unfold yearMonth; agree
instance numberParts_le (field : Bytes) :
    Res.Le (numberParts .debug field) (numberParts .release field) := by
  unfold numberParts; agree
instance scaleYears_le (val n : Int) :
    Res.Le (scaleYears .debug val n) (scaleYears .release val n) := by
  unfold scaleYears; agree
instance addYears_le (val : Int) (fVal : F64) (n : Int) :
    St.Le (addYears .debug val fVal n) (addYears .release val fVal n) := by
  unfold addYears; agree
instance addUnit_le (unit : TokenField) (val : Int) (fVal : F64) :
    St.Le (addUnit .debug unit val fVal) (addUnit .release unit val fVal) := by
  unfold addUnit; agree
instance intervalNumber_le (field : Bytes) (range : Nat) :
    St.Le (intervalNumber .debug field range) (intervalNumber .release field range) := by
  unfold intervalNumber; agree
instance flipTime_le  :
    St.Le (flipTime .debug) (flipTime .release) := by
  unfold flipTime; agree
instance intervalSigned_le (field : Bytes) (range : Nat) :
    St.Le (intervalSigned .debug field range) (intervalSigned .release field range) := by
  unfold intervalSigned; agree
instance intervalField_le {C : Type} (L : Look C) (range : Nat) (i : Nat) (f : Field) :
    St.Le (intervalField .debug L range i f) (intervalField .release L range i f) := by
  unfold intervalField; agree
instance intervalLoop_le {C : Type} (L : Look C) (range : Nat) (fs : List Field) (i : Nat) :
    St.Le (intervalLoop .debug L range fs i) (intervalLoop .release L range fs i) := by
  induction fs generalizing i with
  | nil => unfold intervalLoop; agree
  | cons f fs ih => unfold intervalLoop; agree
instance carryFsec_le  :
    St.Le (carryFsec .debug) (carryFsec .release) := by
  unfold carryFsec; agree
instance negateAll_le  :
    St.Le (negateAll .debug) (negateAll .release) := by
  unfold negateAll; agree
instance decodeInterval_le {C : Type} (L : Look C) (range : Nat) (style : IntervalStyle) (fields : List Field) :
    St.Le (decodeInterval .debug L range style fields) (decodeInterval .release L range style fields) := by
  unfold decodeInterval; agree
instance addYearFrac_le (fVal : F64) :
    St.Le (addYearFrac .debug fVal) (addYearFrac .release fVal) := by
  unfold addYearFrac; agree
instance isoDatePart3_le (s : Bytes) :
    St.Le (isoDatePart3 .debug s) (isoDatePart3 .release s) := by
  unfold isoDatePart3; agree
instance isoDatePart2_le (s : Bytes) :
    St.Le (isoDatePart2 .debug s) (isoDatePart2 .release s) := by
  unfold isoDatePart2; agree
instance isoDateLeft_le (s : Bytes) (unit : Nat) (val : Int) (fVal : F64) :
    St.Le (isoDateLeft .debug s unit val fVal) (isoDateLeft .release s unit val fVal) := by
  unfold isoDateLeft; agree
instance isoDate_le (start s : Bytes) (unit : Nat) (val : Int) (fVal : F64) :
    St.Le (isoDate .debug start s unit val fVal) (isoDate .release start s unit val fVal) := by
  unfold isoDate; agree
instance isoTimePart3_le (s : Bytes) :
    St.Le (isoTimePart3 .debug s) (isoTimePart3 .release s) := by
  unfold isoTimePart3; agree
instance isoTimePart2_le (s : Bytes) :
    St.Le (isoTimePart2 .debug s) (isoTimePart2 .release s) := by
  unfold isoTimePart2; agree
instance isoTimeLeft_le (s : Bytes) (unit : Nat) (val : Int) (fVal : F64) :
    St.Le (isoTimeLeft .debug s unit val fVal) (isoTimeLeft .release s unit val fVal) := by
  unfold isoTimeLeft; agree
instance isoTime_le (start s : Bytes) (unit : Nat) (val : Int) (fVal : F64) :
    St.Le (isoTime .debug start s unit val fVal) (isoTime .release start s unit val fVal) := by
  unfold isoTime; agree
instance isoNumber_le (start s : Bytes) (unit : Nat) (val : Int) (fVal : F64) :
    St.Le (isoNumber .debug start s unit val fVal) (isoNumber .release start s unit val fVal) := by
  unfold isoNumber; agree
instance isoLoop_le (n : Nat) (s : Bytes) : St.Le (isoLoop .debug n s) (isoLoop .release n s) := by
  induction n generalizing s with
  | zero => unfold isoLoop; agree
  | succ n ih => unfold isoLoop; agree
instance decodeIsoInterval_le (s : Bytes) :
    St.Le (decodeIsoInterval .debug s) (decodeIsoInterval .release s) := by
  unfold decodeIsoInterval; agree

/-! ## Parse -/

instance Date_ofDec_le (d : Dec) :
    Res.Le (Date.ofDec .debug d) (Date.ofDec .release d) := by
  unfold Date.ofDec; agree
instance Date_tryFromStrW_le {C : Type} (L : Look C) (u : TokenField) (order : DateOrder) (s : Bytes) :
    St.Le (Date.tryFromStrW .debug L u order s) (Date.tryFromStrW .release L u order s) := by
  unfold Date.tryFromStrW; agree
instance Timestamp_ofDec_le (d : Dec) :
    Res.Le (Timestamp.ofDec .debug d) (Timestamp.ofDec .release d) := by
  unfold Timestamp.ofDec; agree
instance Timestamp_tryFromStrW_le {C : Type} (L : Look C) (u : TokenField) (typmod : Int) (order : DateOrder) (s : Bytes) :
    St.Le (Timestamp.tryFromStrW .debug L u typmod order s) (Timestamp.tryFromStrW .release L u typmod order s) := by
  unfold Timestamp.tryFromStrW; agree
instance Time_tryFromStrW_le {C : Type} (L : Look C) (u : TokenField) (typmod : Int) (order : DateOrder) (s : Bytes) :
    St.Le (Time.tryFromStrW .debug L u typmod order s) (Time.tryFromStrW .release L u typmod order s) := by
  unfold Time.tryFromStrW; agree
instance Interval_ofDec_le (s : IvS) (typmod : Int) :
    Res.Le (Interval.ofDec .debug s typmod) (Interval.ofDec .release s typmod) := by
  unfold Interval.ofDec; agree
instance Interval_tryFromStrW_le {C : Type} (L : Look C) (u : TokenField) (typmod : Int) (style : IntervalStyle) (s : Bytes) :
    St.Le (Interval.tryFromStrW .debug L u typmod style s) (Interval.tryFromStrW .release L u typmod style s) := by
  unfold Interval.tryFromStrW; agree
instance Date_tryFromStr_le (u : TokenField) (c : Caches) (s : Bytes) (order : DateOrder) :
    Res.Le (Date.tryFromStr .debug u c s order) (Date.tryFromStr .release u c s order) := by
  unfold Date.tryFromStr; agree
instance Time_tryFromStr_le (u : TokenField) (c : Caches) (s : Bytes) (typmod : Int) (order : DateOrder) :
    Res.Le (Time.tryFromStr .debug u c s typmod order) (Time.tryFromStr .release u c s typmod order) := by
  unfold Time.tryFromStr; agree
instance Timestamp_tryFromStr_le (u : TokenField) (c : Caches) (s : Bytes) (typmod : Int) (order : DateOrder) :
    Res.Le (Timestamp.tryFromStr .debug u c s typmod order) (Timestamp.tryFromStr .release u c s typmod order) := by
  unfold Timestamp.tryFromStr; agree
instance Interval_tryFromStr_le (u : TokenField) (c : Caches) (s : Bytes) (typmod : Int) (style : IntervalStyle) :
    Res.Le (Interval.tryFromStr .debug u c s typmod style) (Interval.tryFromStr .release u c s typmod style) := by
  unfold Interval.tryFromStr; agree

/-! ## Serde -/

instance Date_serText_le (junk : Bytes) (d : Date) :
    Res.Le (Date.serText .debug junk d) (Date.serText .release junk d) := by
  unfold Date.serText; agree
instance Date_visit_le (u : TokenField) (c : Caches) (x1 : DeVal) :
    De.Le (Date.visit .debug u c x1) (Date.visit .release u c x1) := by
  unfold Date.visit; agree
instance Time_serText_le (junk : Bytes) (t : Time) :
    Res.Le (Time.serText .debug junk t) (Time.serText .release junk t) := by
  unfold Time.serText; agree
instance Time_visit_le (u : TokenField) (c : Caches) (x1 : DeVal) :
    De.Le (Time.visit .debug u c x1) (Time.visit .release u c x1) := by
  unfold Time.visit; agree
instance Timestamp_serText_le (junk : Bytes) (t : Timestamp) :
    Res.Le (Timestamp.serText .debug junk t) (Timestamp.serText .release junk t) := by
  unfold Timestamp.serText; agree
instance Timestamp_visit_le (u : TokenField) (c : Caches) (x1 : DeVal) :
    De.Le (Timestamp.visit .debug u c x1) (Timestamp.visit .release u c x1) := by
  unfold Timestamp.visit; agree
instance Interval_serText_le (junk : Bytes) (a : Interval) :
    Res.Le (Interval.serText .debug junk a) (Interval.serText .release junk a) := by
  unfold Interval.serText; agree
instance Interval_visit_le (u : TokenField) (c : Caches) (x1 : DeVal) :
    De.Le (Interval.visit .debug u c x1) (Interval.visit .release u c x1) := by
  unfold Interval.visit; agree

end Pg
