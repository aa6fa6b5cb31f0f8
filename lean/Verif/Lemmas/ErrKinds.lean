import Verif.Lemmas.CacheSim

/-! # The error for an empty text comes from nowhere but the first look at the text -/

namespace Pg

theorem Res.ne_ok {α : Type} (a : α) : (Res.ok a : Res α) ≠ .err .empty := by intro h; cases h
theorem Res.ne_pure {α : Type} (a : α) : (pure a : Res α) ≠ .err .empty := by intro h; cases h
theorem Res.ne_inv {α : Type} : (Res.err .invalid : Res α) ≠ .err .empty := by intro h; cases h
theorem Res.ne_ovf {α : Type} : (Res.err .overflow : Res α) ≠ .err .empty := by intro h; cases h
theorem Res.ne_panic {α : Type} : (Res.panic : Res α) ≠ .err .empty := by intro h; cases h
theorem Res.ne_bind {α β : Type} {r : Res α} {f : α → Res β} (h : r ≠ .err .empty) (hf : ∀ a, f a ≠ .err .empty) :
    r >>= f ≠ .err .empty := by
  cases r with
  | ok a => exact hf a
  | err e => intro h'; cases h'; exact h rfl
  | panic => intro h'; cases h'
theorem chk32_ne (p : Profile) (x : Int) : chk32 p x ≠ .err .empty := by
  unfold chk32; repeat' split
  all_goals (intro h; cases h)
theorem chk64_ne (p : Profile) (x : Int) : chk64 p x ≠ .err .empty := by
  unfold chk64; repeat' split
  all_goals (intro h; cases h)
theorem chkU32_ne (p : Profile) (x : Int) : chkU32 p x ≠ .err .empty := by
  unfold chkU32; repeat' split
  all_goals (intro h; cases h)
theorem Res.ne_ite {α : Type} {c : Prop} [Decidable c] {a b : Res α} (ha : a ≠ .err .empty) (hb : b ≠ .err .empty) :
    (if c then a else b) ≠ .err .empty := by
  by_cases h : c
  · rwa [if_pos h]
  · rwa [if_neg h]

/-- Goes through a computation. -/
macro "kindly" : tactic => `(tactic| repeat' first
  | exact Res.ne_ok _
  | exact Res.ne_pure _
  | exact Res.ne_inv
  | exact Res.ne_ovf
  | exact Res.ne_panic
  | exact chk32_ne _ _
  | exact chk64_ne _ _
  | exact chkU32_ne _ _
  | assumption
  | refine Res.ne_bind ?_ (fun _ => ?_)
  | refine Res.ne_ite ?_ ?_
  | split
  | dsimp only)

variable {p : Profile}

theorem date2julian_ne (y m d : Int) : date2julian p y m d ≠ .err .empty := by unfold date2julian; kindly
theorem julian2date_ne (jd : Int) : julian2date p jd ≠ .err .empty := by unfold julian2date; kindly
theorem date2time_ne (jd : Int) : date2time p jd ≠ .err .empty := by unfold date2time; kindly
theorem time2t_ne (h m s f : Int) : time2t p h m s f ≠ .err .empty := by unfold time2t; kindly
theorem toTimestamp_ne (tm : PgTime) (f : Int) : tm.toTimestamp p f ≠ .err .empty := by
  unfold PgTime.toTimestamp
  split
  · kindly
  · refine Res.ne_bind (date2julian_ne _ _ _) fun _ => Res.ne_bind (date2julian_ne _ _ _) fun _ =>
      Res.ne_bind (chk32_ne _ _) fun _ => Res.ne_bind (time2t_ne _ _ _ _) fun _ => ?_
    kindly
theorem daysOfMonth_ne (y m : Int) : daysOfMonth y m ≠ .err .empty := by unfold daysOfMonth; kindly
theorem validateDate_ne (tm : PgTime) (fMask : Nat) (a b c : Bool) : tm.validateDate p fMask a b c ≠ .err .empty := by
  unfold PgTime.validateDate
  refine Res.ne_bind ?_ fun _ => Res.ne_bind ?_ fun _ => ?_
  · unfold PgTime.validateYear; kindly
  · unfold PgTime.validateDoy
    have h1 := @date2julian_ne p
    have h2 := @julian2date_ne p
    split
    · exact Res.ne_bind (h1 _ _ _) fun _ => Res.ne_bind (chk32_ne _ _) fun _ =>
        Res.ne_bind (chk32_ne _ _) fun _ => Res.ne_bind (h2 _) fun _ => Res.ne_pure _
    · kindly
  · have := daysOfMonth_ne
    unfold PgTime.validateMonthDay
    kindly
theorem roundTo_ne (v n : Int) : Interval.roundTo p v n ≠ .err .empty := by
  unfold Interval.roundTo Interval.roundScale; kindly
theorem timeAdjust_ne (t : Time) (n : Int) : t.adjustByTypmod p n ≠ .err .empty := by
  have := @roundTo_ne p
  unfold Time.adjustByTypmod; kindly
  exact this _ _
theorem tsAdjust_ne (t : Timestamp) (n : Int) : t.adjustByTypmod p n ≠ .err .empty := by
  have := @roundTo_ne p
  unfold Timestamp.adjustByTypmod; kindly
  exact this _ _
theorem ivAdjust_ne (a : Interval) (n : Int) : a.adjustByTypmod p n ≠ .err .empty := by
  have := @roundTo_ne p
  unfold Interval.adjustByTypmod
  split
  · refine Res.ne_bind ?_ fun _ => ?_
    · unfold Interval.adjustRange; kindly
    · kindly
      exact this _ _
  · kindly
theorem str2i32_ne (s : Bytes) : str2i32 s ≠ .err .empty := by unfold str2i32; simp only; kindly
theorem str2d_ne (s : Bytes) : str2d s ≠ .err .empty := by unfold str2d; simp only; kindly
theorem fraction_ne (s : Bytes) : parseFractionalSecond s ≠ .err .empty := by
  unfold parseFractionalSecond
  refine Res.ne_bind (str2d_ne _) fun _ => ?_
  kindly
theorem ofInt_ne (v : Int) : TokenField.ofInt v ≠ .err .empty := by unfold TokenField.ofInt; kindly
theorem scaleYears_ne (a b : Int) : scaleYears p a b ≠ .err .empty := by unfold scaleYears; kindly
theorem signMonths_ne (b : Bool) (v : Int) : signMonths p b v ≠ .err .empty := by unfold signMonths; kindly
theorem yearMonth_ne (b : Bool) (v : Int) (s : Bytes) : yearMonth p b v s ≠ .err .empty := by
  unfold yearMonth
  refine Res.ne_bind (str2i32_ne _) fun _ => ?_
  have := @signMonths_ne p
  kindly
theorem numberParts_ne (s : Bytes) : numberParts p s ≠ .err .empty := by
  unfold numberParts
  refine Res.ne_bind (str2i32_ne _) fun a => ?_
  have h1 := @yearMonth_ne p
  have h2 := str2d_ne
  obtain ⟨v, r⟩ := a
  kindly
theorem parseIsoNumber_ne (s : Bytes) : parseIsoNumber s ≠ .err .empty := by
  have h2 := str2d_ne
  unfold parseIsoNumber isoSplit
  kindly
theorem dateSplit_ne (fuel : Nat) (s : Bytes) (nf : Nat) : dateSplit fuel s nf ≠ .err .empty := by
  induction fuel generalizing s nf with
  | zero => unfold dateSplit; exact Res.ne_ok _
  | succ n ih =>
    unfold dateSplit
    kindly
    all_goals exact ih _ _

/-- A decoder that never fails with the error for an empty text. -/
structure Full {σ α : Type} (m : St σ α) : Prop where
  run : ∀ s, (m s).1 ≠ .err .empty

namespace Full
variable {σ τ α β C : Type}

theorem pure (a : α) : Full (Pure.pure a : St σ α) := ⟨fun _ => Res.ne_ok _⟩
theorem inv : Full (St.fail .invalid : St σ α) := ⟨fun _ => Res.ne_inv⟩
theorem ovf : Full (St.fail .overflow : St σ α) := ⟨fun _ => Res.ne_ovf⟩
theorem panic : Full (St.panic : St σ α) := ⟨fun _ => Res.ne_panic⟩
theorem get : Full (St.get : St σ σ) := ⟨fun _ => Res.ne_ok _⟩
theorem mod (f : σ → σ) : Full (St.mod f) := ⟨fun _ => Res.ne_ok _⟩
theorem lift {r : Res α} (hr : r ≠ .err .empty) : Full (St.lift r : St σ α) := ⟨fun _ => hr⟩
theorem bind {m : St σ α} {f : α → St σ β} (hm : Full m) (hf : ∀ a, Full (f a)) : Full (m >>= f) := by
  refine ⟨fun s => ?_⟩
  have h1 := hm.run s
  rw [St.bind_run]
  cases hr : m s with
  | mk r s' =>
    rw [hr] at h1
    cases r with
    | ok a => exact (hf a).run s'
    | err e => intro h'; cases h'; exact h1 rfl
    | panic => exact Res.ne_panic
theorem zoom {g : σ → τ} {put : τ → σ → σ} {m : St τ α} (hm : Full m) : Full (St.zoom g put m) := ⟨fun s => hm.run (g s)⟩
theorem noLook {m : St σ α} (hm : Full m) : Full (Pg.noLook (C := C) m) := ⟨fun s => hm.run s.1⟩
theorem ignore {m : St σ α} : Full (St.ignore m) := by
  refine ⟨fun s => ?_⟩
  unfold St.ignore
  cases hr : m s with
  | mk r s' => cases r <;> (intro h'; cases h')
theorem orElse {m h : St σ α} (hm : Full m) (hh : Full h) : Full (St.orElse m h) := by
  refine ⟨fun s => ?_⟩
  have h1 := hm.run s
  unfold St.orElse
  cases hr : m s with
  | mk r s' =>
    rw [hr] at h1
    cases r with
    | ok a => exact h1
    | err e => cases e with
      | invalid => exact hh.run s'
      | empty => exact h1
      | overflow => exact h1
    | panic => exact h1
theorem runLocal {init : σ} {m : St (σ × C) α} (hm : Full m) : Full (Pg.runLocal init m) := by
  refine ⟨fun c => ?_⟩
  have h1 := hm.run (init, c)
  unfold Pg.runLocal
  split
  · exact Res.ne_ok _
  · rename_i h; rw [h] at h1; intro h'; cases h'; exact h1 rfl
  · exact Res.ne_panic
theorem lookDate (i : Nat) (w : Bytes) : Full (Pg.lookDate (σ := σ) plainLook i w) := by
  refine ⟨fun s => ?_⟩
  simp only [Pg.lookDate, plainLook, searchDate_eq]
  exact Res.ne_ok _
theorem lookDelta (i : Nat) (w : Bytes) : Full (Pg.lookDelta (σ := σ) plainLook i w) := by
  refine ⟨fun s => ?_⟩
  simp only [Pg.lookDelta, plainLook, searchDelta_eq]
  exact Res.ne_ok _

end Full

/-- Goes through a decoder. -/
macro "fully" : tactic => `(tactic| repeat' first
  | with_reducible exact Full.pure _
  | with_reducible exact Full.inv
  | with_reducible exact Full.ovf
  | with_reducible exact Full.panic
  | with_reducible exact Full.get
  | with_reducible exact Full.mod _
  | with_reducible exact Full.ignore
  | with_reducible exact Full.lookDate _ _
  | with_reducible exact Full.lookDelta _ _
  | with_reducible exact Full.lift (str2i32_ne _)
  | with_reducible exact Full.lift (str2d_ne _)
  | with_reducible exact Full.lift (fraction_ne _)
  | with_reducible exact Full.lift (chk32_ne _ _)
  | with_reducible exact Full.lift (chk64_ne _ _)
  | with_reducible exact Full.lift (julian2date_ne _)
  | with_reducible exact Full.lift (date2time_ne _)
  | with_reducible exact Full.lift (validateDate_ne _ _ _ _ _)
  | with_reducible exact Full.lift (ofInt_ne _)
  | with_reducible exact Full.lift (scaleYears_ne _ _)
  | with_reducible exact Full.lift (numberParts_ne _)
  | with_reducible exact Full.lift (parseIsoNumber_ne _)
  | with_reducible exact Full.lift (dateSplit_ne _ _ _)
  | with_reducible assumption
  | with_reducible refine Full.bind ?_ (fun _ => ?_)
  | with_reducible refine Full.noLook ?_
  | with_reducible refine Full.zoom ?_
  | split
  | dsimp only
  | with_reducible solve_by_elim (maxDepth := 2))

theorem numberDate_full (s : Bytes) : Full (numberDate s) := by unfold numberDate; fully
theorem numberTime_full (s : Bytes) (a b : Nat) : Full (numberTime s a b) := by unfold numberTime; fully
theorem numberField_full (s : Bytes) (a : Nat) : Full (decodeNumberField s a) := by
  have h1 := numberDate_full
  have h2 := numberTime_full
  unfold decodeNumberField
  fully
theorem numberByMask_full (s : Bytes) (v : Int) (h : Bool) (m : Nat) (o : DateOrder) :
    Full (numberByMask s v h m o) := by
  have h1 := numberField_full
  unfold numberByMask
  simp only
  fully
theorem numberVal_full (s : Bytes) (v : Int) (h : Bool) (m : Nat) (o : DateOrder) :
    Full (decodeNumberVal s v h m o) := by
  have h1 := numberByMask_full
  unfold decodeNumberVal
  fully
theorem number_full (s : Bytes) (h : Bool) (m : Nat) (o : DateOrder) : Full (decodeNumber s h m o) := by
  have h1 := numberVal_full
  have h2 := numberField_full
  unfold decodeNumber
  fully
theorem onNum_full {α : Type} {m : St NumS α} (h : Full m) : Full (onNum m) := Full.zoom h

theorem textPass_full (fs : List Bytes) (i : Nat) : Full (textPass plainLook fs i) := by
  induction fs generalizing i with
  | nil => exact Full.pure _
  | cons f fs ih => unfold textPass; fully
theorem numPass_full (order : DateOrder) (fs : List (Option Bytes)) : Full (numPass order fs) := by
  have := number_full
  induction fs with
  | nil => exact Full.pure _
  | cons f fs ih => cases f <;> (unfold numPass; fully)
theorem decodeDate_full (str : Bytes) (order : DateOrder) : Full (decodeDate plainLook str order) := by
  have h1 := textPass_full
  have h2 := numPass_full
  unfold decodeDate dateBody
  fully
theorem decodeTime_full (f : Bytes) (range : Nat) : Full (decodeTime f range) := by
  have h1 : ∀ s, Full (timeSeconds s) := by intro s; unfold timeSeconds; fully
  have h2 : ∀ s, Full (timeTail s range) := by intro s; unfold timeTail; fully
  unfold decodeTime
  fully
theorem dateToken_full (f : Bytes) (order : DateOrder) : Full (dateToken p plainLook f order) := by
  have h1 := decodeDate_full
  unfold dateToken
  fully
theorem labelled_full (str : Bytes) : Full (labelled p str) := by
  have h1 : ∀ v s, Full (labelJulian p v s) := by intro v s; unfold labelJulian; fully
  have h3 := fun s m => onNum_full (numberField_full s m)
  have h2 : ∀ t v s, Full (labelAssign p t str v s) := by intro t v s; unfold labelAssign; fully
  unfold labelled
  fully
theorem numberToken_full (str : Bytes) (order : DateOrder) : Full (numberToken p plainLook str order) := by
  have h1 := fun s m => onNum_full (numberField_full s m)
  have h2 := fun s h m o => onNum_full (number_full s h m o)
  have h3 := @labelled_full p str
  have h4 := decodeDate_full
  unfold numberToken
  fully
theorem wordAction_full (ftypes : List TokenField) (i : Nat) (ty : TokenType) (v : Int) : Full (wordAction ftypes i ty v) := by
  unfold wordAction reservedWord monthWord isoTimeWord
  fully
theorem wordToken_full (ftypes : List TokenField) (i : Nat) (w : Bytes) :
    Full (wordToken plainLook ftypes i w) := by
  have := wordAction_full
  unfold wordToken
  fully
theorem onTime_full {α : Type} {m : St TimeS α} (h : Full m) : Full (onTime m) := Full.zoom h
theorem addMask_full : Full addMask := by unfold addMask; fully
theorem dateTimeField_full (order : DateOrder) (ftypes : List TokenField) (i : Nat) (f : Field) :
    Full (dateTimeField p plainLook order ftypes i f) := by
  have h0 := addMask_full
  have h1 := @dateToken_full p
  have h2 := fun f r => onTime_full (decodeTime_full f r)
  have h3 := @numberToken_full p
  have h4 := wordToken_full
  have h5 : ∀ f, Full (timeToken f) := by intro f; unfold timeToken; fully
  unfold dateTimeField
  split
  · exact Full.bind (h1 _ _) fun _ => Full.noLook h0
  · exact Full.bind (Full.noLook (h5 _)) fun _ => Full.noLook h0
  · exact Full.bind (h3 _ _) fun _ => Full.noLook h0
  · refine Full.bind (h4 _ _ _) fun _ => ?_
    fully
  · refine Full.bind (h4 _ _ _) fun _ => ?_
    fully
  · fully
theorem dateTimeLoop_full (order : DateOrder) (ftypes : List TokenField) (fs : List Field) (i : Nat) :
    Full (dateTimeLoop p plainLook order ftypes fs i) := by
  have := @dateTimeField_full p
  induction fs generalizing i with
  | nil => exact Full.pure _
  | cons f fs ih => unfold dateTimeLoop; fully
theorem finishFields_full : Full (finishFields p) := by unfold finishFields; fully
theorem decodeDateTime_full (order : DateOrder) (fs : List Field) :
    Full (decodeDateTime p plainLook order fs) := by
  have h1 := @dateTimeLoop_full p
  have h2 := @finishFields_full p
  unfold decodeDateTime
  fully

theorem timeOnlyField_full (order : DateOrder) (ftypes : List TokenField) (i : Nat) (f : Field) :
    Full (timeOnlyField p plainLook order ftypes i f) := by
  have h0 := addMask_full
  have h1 := fun s m => onNum_full (numberField_full s m)
  have h2 := fun s h m o => onNum_full (number_full s h m o)
  have h3 := @labelled_full p
  have h4 := decodeDate_full
  have h5 := fun f r => onTime_full (decodeTime_full f r)
  have h6 : ∀ i s, Full (dateTokenT plainLook order ftypes i s) := by intro i s; unfold dateTokenT; fully
  have h7 : ∀ i s, Full (numberTokenT p plainLook order ftypes i s) := by intro i s; unfold numberTokenT; fully
  have h8 : ∀ i ty v, Full (wordActionT ftypes i ty v) := by
    intro i ty v; unfold wordActionT reservedWordT isoTimeWordT; fully
  have h9 : ∀ i w, Full (wordTokenT plainLook ftypes i w) := by intro i s; unfold wordTokenT; fully
  unfold timeOnlyField
  split
  · exact Full.bind (h6 _ _) fun _ => Full.noLook h0
  · exact Full.bind (Full.noLook (h5 _ _)) fun _ => Full.noLook h0
  · exact Full.bind (h7 _ _) fun _ => Full.noLook h0
  · refine Full.bind (h9 _ _) fun _ => ?_
    fully
  · refine Full.bind (h9 _ _) fun _ => ?_
    fully
  · fully
theorem timeOnlyLoop_full (order : DateOrder) (ftypes : List TokenField) (fs : List Field) (i : Nat) :
    Full (timeOnlyLoop p plainLook order ftypes fs i) := by
  have := @timeOnlyField_full p
  induction fs generalizing i with
  | nil => exact Full.pure _
  | cons f fs ih => unfold timeOnlyLoop; fully
theorem decodeTimeOnly_full (order : DateOrder) (fs : List Field) :
    Full (decodeTimeOnly p plainLook order fs) := by
  have h1 := @timeOnlyLoop_full p
  have h2 := @finishFields_full p
  unfold decodeTimeOnly
  fully

theorem adjustFractSeconds_full (f : F64) (n : Int) : Full (adjustFractSeconds p f n) := by unfold adjustFractSeconds; fully
theorem adjustFractDays_full (f : F64) (n : Int) : Full (adjustFractDays p f n) := by
  have := @adjustFractSeconds_full p
  unfold adjustFractDays; fully
theorem addFsec_full (x : Int) : Full (addFsec p x) := by unfold addFsec; fully
theorem addSec_full (x : Int) : Full (addSec p x) := by unfold addSec; fully
theorem addMin_full (x : Int) : Full (addMin p x) := by unfold addMin; fully
theorem addHour_full (x : Int) : Full (addHour p x) := by unfold addHour; fully
theorem addMday_full (x : Int) : Full (addMday p x) := by unfold addMday; fully
theorem addMon_full (x : Int) : Full (addMon p x) := by unfold addMon; fully
theorem addYear_full (x : Int) : Full (addYear p x) := by unfold addYear; fully

/-- Like `fully`, for the functions that add to fields of an interval. -/
macro "addfully" : tactic => `(tactic| repeat' first
  | with_reducible exact adjustFractSeconds_full _ _
  | with_reducible exact adjustFractDays_full _ _
  | with_reducible exact addFsec_full _
  | with_reducible exact addSec_full _
  | with_reducible exact addMin_full _
  | with_reducible exact addHour_full _
  | with_reducible exact addMday_full _
  | with_reducible exact addMon_full _
  | with_reducible exact addYear_full _
  | with_reducible exact Full.pure _
  | with_reducible exact Full.inv
  | with_reducible exact Full.ovf
  | with_reducible exact Full.panic
  | with_reducible exact Full.get
  | with_reducible exact Full.mod _
  | with_reducible exact Full.lift (chk32_ne _ _)
  | with_reducible exact Full.lift (chk64_ne _ _)
  | with_reducible exact Full.lift (scaleYears_ne _ _)
  | with_reducible exact Full.lift (parseIsoNumber_ne _)
  | with_reducible refine Full.bind ?_ (fun _ => ?_)
  | with_reducible refine Full.zoom ?_
  | split
  | dsimp only
  | with_reducible solve_by_elim (maxDepth := 2))

theorem addUnit_full (t : TokenField) (v : Int) (f : F64) : Full (addUnit p t v f) := by
  have : ∀ v f n, Full (addYears p v f n) := by intro v f n; unfold addYears; addfully
  unfold addUnit
  addfully
theorem intervalNumber_full (f : Bytes) (r : Nat) : Full (intervalNumber p f r) := by
  have := @addUnit_full p
  unfold intervalNumber onTm
  fully
theorem intervalField_full (r i : Nat) (f : Field) : Full (intervalField p plainLook r i f) := by
  have h1 := @intervalNumber_full p
  have h2 := decodeTime_full
  have h3 : Full (flipTime p) := by unfold flipTime; addfully
  have h4 : ∀ f r, Full (intervalSigned p f r) := by intro f r; unfold intervalSigned onTm onTimeI; fully
  have h5 : Full addMaskI := by unfold addMaskI; fully
  have h6 : ∀ ty v, Full (intervalWord ty v) := by intro ty v; unfold intervalWord; fully
  unfold intervalField onTimeI
  fully
theorem intervalLoop_full (r : Nat) (fs : List Field) (i : Nat) : Full (intervalLoop p plainLook r fs i) := by
  have := @intervalField_full p
  induction fs generalizing i with
  | nil => exact Full.pure _
  | cons f fs ih => unfold intervalLoop; fully
theorem decodeInterval_full (r : Nat) (style : IntervalStyle) (fs : List Field) :
    Full (decodeInterval p plainLook r style fs) := by
  have h1 := @intervalLoop_full p
  have h2 : Full (carryFsec p) := by unfold carryFsec; addfully
  have h3 : Full (negateAll p) := by unfold negateAll; addfully
  have h4 : Full (sqlSign style fs) := by unfold sqlSign; fully
  unfold decodeInterval onTm
  fully

theorem isoDateLeft_full (s : Bytes) (u : Nat) (v : Int) (f : F64) : Full (isoDateLeft p s u v f) := by
  have h0 : Full isoTimePart := Full.mod _
  have h1 : ∀ s, Full (isoDatePart3 p s) := by intro s; unfold isoDatePart3 onTmIso; addfully
  have h2 : ∀ s, Full (isoDatePart2 p s) := by intro s; unfold isoDatePart2 onTmIso; addfully
  unfold isoDateLeft onTmIso addYearFrac; addfully
theorem isoTimeLeft_full (s : Bytes) (u : Nat) (v : Int) (f : F64) : Full (isoTimeLeft p s u v f) := by
  have h4 : ∀ s, Full (isoTimePart3 p s) := by intro s; unfold isoTimePart3 onTmIso; addfully
  have h5 : ∀ s, Full (isoTimePart2 p s) := by intro s; unfold isoTimePart2 onTmIso; addfully
  unfold isoTimeLeft onTmIso; addfully
theorem isoDate_full (st s : Bytes) (u : Nat) (v : Int) (f : F64) : Full (isoDate p st s u v f) := by
  have h0 : Full isoTimePart := Full.mod _
  have h3 := @isoDateLeft_full p
  unfold isoDate onTmIso addYearFrac; addfully
theorem isoTime_full (st s : Bytes) (u : Nat) (v : Int) (f : F64) : Full (isoTime p st s u v f) := by
  have h6 := @isoTimeLeft_full p
  unfold isoTime onTmIso; addfully
theorem isoNumber_full (st s : Bytes) (u : Nat) (v : Int) (f : F64) : Full (isoNumber p st s u v f) := by
  have h7 := @isoDate_full p
  have h8 := @isoTime_full p
  unfold isoNumber
  fully
theorem isoLoop_full (fuel : Nat) (s : Bytes) : Full (isoLoop p fuel s) := by
  have := @isoNumber_full p
  induction fuel generalizing s with
  | zero => exact Full.pure _
  | succ n ih => unfold isoLoop isoTimePart; fully
theorem decodeIsoInterval_full (s : Bytes) : Full (decodeIsoInterval p s) := by
  have := @isoLoop_full p
  unfold decodeIsoInterval
  fully

theorem dateOfDec_ne (d : Dec) : Date.ofDec p d ≠ .err .empty := by
  have := @date2julian_ne p
  unfold Date.ofDec; kindly
theorem tsOfDec_ne (d : Dec) : Timestamp.ofDec p d ≠ .err .empty := by
  have := @toTimestamp_ne p
  unfold Timestamp.ofDec; kindly
theorem timeOfPg_ne (tm : PgTime) (f : Int) : Time.fromPgtime p tm f ≠ .err .empty := by
  unfold Time.fromPgtime; kindly
theorem ivOfDec_ne (s : IvS) (n : Int) : Interval.ofDec p s n ≠ .err .empty := by
  have := @ivAdjust_ne p
  unfold Interval.ofDec
  split
  · refine Res.ne_bind ?_ fun _ => this _ _
    unfold Interval.fromPgtime; kindly
  · kindly

end Pg
