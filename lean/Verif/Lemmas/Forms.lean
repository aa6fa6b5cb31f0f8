import Verif.Lemmas.Meridiem
import Verif.Spec.Forms

/-! # All written forms of days and clock times -/

namespace Pg
open Spec

theorem DigitsOf.ne {lo hi : Nat} {ds : Bytes} (h : DigitsOf lo hi ds) (h1 : 1 ≤ lo) : ds ≠ [] := by
  rintro rfl
  have := h.2.1
  simp at this
  omega

theorem pair_lt {ds : Bytes} (h : DigitsOf 2 2 ds) : value ds ≤ 99 := by
  have := value_lt h.1
  have e : ds.length = 2 := by have := h.2; omega
  rw [e] at this
  omega

theorem pair_len {ds : Bytes} (h : DigitsOf 2 2 ds) : ds.length = 2 := by
  have := h.2; omega

theorem str2i32_two {ds r : Bytes} (h : DigitsOf 2 2 ds) (hr : Stops isDigit r) :
    str2i32 (ds ++ r) = .ok ((value ds : Int), r) :=
  str2i32_ok h.1 (DigitsOf.ne h (by omega)) hr (by have := pair_len h; omega) (by have := pair_lt h; omega)

theorem str2i32_two' {ds : Bytes} (h : DigitsOf 2 2 ds) : str2i32 ds = .ok ((value ds : Int), []) := by
  have := str2i32_two h (Stops.nil _)
  rwa [List.append_nil] at this

theorem ite_of {c d A B : Prop} [Decidable c] [Decidable d] (h : if c then A else B) (e : d ↔ c) :
    if d then A else B := by
  by_cases hd : d
  · rw [if_pos hd]; rwa [if_pos (e.1 hd)] at h
  · rw [if_neg hd]; rwa [if_neg (fun q => hd (e.2 q))] at h

/-- The type of the field. -/
def dayField : DayText → TokenField
  | .numeric .. => .date
  | .compact .. => .number

/-- Year, month and day digits. -/
def dayNums (order : DateOrder) : DayText → Bytes × Bytes × Bytes
  | .numeric _ a b c => assign3 order (decide (3 ≤ a.length)) a b c
  | .compact ys mm dd => (ys, mm, dd)

/-- The numbers fit. -/
def DayFits (order : DateOrder) (D : DayText) : Prop :=
  NumOk (dayNums order D).1 ∧ NumOk (dayNums order D).2.1 ∧ NumOk (dayNums order D).2.2

instance (order : DateOrder) (D : DayText) : Decidable (DayFits order D) := by unfold DayFits; infer_instance

theorem day_eq (order : DateOrder) (bc : Bool) (D : DayText) :
    D.day order bc = namedDay (dayNums order D).1 (value (dayNums order D).2.1) (value (dayNums order D).2.2) bc := by
  cases D <;> rfl

theorem dayNums_digits (order : DateOrder) {D : DayText} (h : D.Ok) : Digits (dayNums order D).1 := by
  cases D with
  | numeric x a b c => exact assign3_digits h.2.1.1 h.2.2.2.1.1
  | compact ys mm dd => exact h.1.1

theorem day_big {order : DateOrder} {bc : Bool} {D : DayText} (h : D.Ok) (hn : ¬ DayFits order D) :
    ∀ day, D.day order bc = some day → day.Real ∧ (2147483647 ≤ day.y ∨ day.y ≤ -2147483646) := by
  intro day hd
  rw [day_eq] at hd
  refine namedDay_big (dayNums_digits order h) ?_ day hd
  intro hv
  apply hn
  unfold DayFits NumOk
  have hl : (dayNums order D).1.length ≤ 10 ∧ (dayNums order D).2.1.length ≤ 10 ∧ (dayNums order D).2.2.length ≤ 10 := by
    cases D with
    | numeric x a b c =>
      exact (assign3_all (P := fun v : Bytes => v.length ≤ 10)).1 ⟨h.2.1.2.2, h.2.2.1.2.2, h.2.2.2.1.2.2⟩
    | compact ys mm dd =>
      exact ⟨h.1.2.2, by have := h.2.1.2.2; simp only [dayNums]; omega, by have := h.2.2.2.2; simp only [dayNums]; omega⟩
  exact ⟨⟨hl.1, hv.1⟩, ⟨hl.2.1, hv.2.1⟩, ⟨hl.2.2, hv.2.2⟩⟩

theorem dotPos_plain {ds : Bytes} (h : Digits ds) : dotPos ds = ds.length := by
  unfold dotPos
  have := takeWhile_span (p := fun b => decide (b ≠ 46)) (a := ds) (r := []) (by
    intro b hb; have := h b hb; simp; omega) (Stops.nil _)
  rw [List.append_nil] at this
  rw [this]

theorem dotPos_dot {ds r : Bytes} (h : Digits ds) : dotPos (ds ++ 46 :: r) = ds.length := by
  unfold dotPos
  rw [takeWhile_span (p := fun b => decide (b ≠ 46)) (a := ds) (r := 46 :: r) (by
    intro b hb; have := h b hb; simp; omega) (Stops.cons (by simp))]

/-- `decode_number_field` on a compact date. -/
theorem numberDate_eq {ys mm dd : Bytes} (h1 : DigitsOf 2 10 ys) (h2 : DigitsOf 2 2 mm) (h3 : DigitsOf 2 2 dd)
    {m : Nat} (hm : m &&& 14 = 0) (s : NumS) (hs : s.is2 = false) :
    if NumOk ys then
      decodeNumberField (ys ++ mm ++ dd) m s =
        (.ok .date, ⟨14, { s.tm with year := value ys, mon := value mm, mday := value dd }, s.fsec,
          decide (ys.length ≤ 2)⟩)
    else ∃ s', decodeNumberField (ys ++ mm ++ dd) m s = (.err .overflow, s') := by
  have l2 := pair_len h2
  have l3 := pair_len h3
  have l1 := h1.2.1
  have hd : Digits (ys ++ mm ++ dd) := digits_append.2 ⟨digits_append.2 ⟨h1.1, h2.1⟩, h3.1⟩
  have hlen : (ys ++ mm ++ dd).length = ys.length + 4 := by simp; omega
  have e1 : (ys ++ mm ++ dd).drop ((ys ++ mm ++ dd).length - 2) = dd := by
    rw [hlen, show ys.length + 4 - 2 = (ys ++ mm).length by simp; omega, List.drop_left]
  have e2 : ((ys ++ mm ++ dd).drop ((ys ++ mm ++ dd).length - 4)).take 2 = mm := by
    rw [hlen, show ys.length + 4 - 4 = ys.length by omega, List.append_assoc, List.drop_left, ← l2, List.take_left]
  have e3 : (ys ++ mm ++ dd).take ((ys ++ mm ++ dd).length - 4) = ys := by
    rw [hlen, show ys.length + 4 - 4 = ys.length by omega, List.append_assoc, List.take_left]
  have e4 : (ys ++ mm ++ dd).length - 4 = ys.length := by omega
  have key : decodeNumberField (ys ++ mm ++ dd) m s = numberDate (ys ++ mm ++ dd) s := by
    unfold decodeNumberField
    rw [St.ite_run, if_neg (by rw [dotPos_plain hd]; simp), St.ite_run, if_pos ⟨by rw [hm]; decide, by omega⟩]
  rw [key]
  unfold numberDate
  simp only
  rw [St.mod_bind, e1, str2i32_two' h3, St.lift_ok_bind]
  simp only
  rw [St.mod_bind, e2, str2i32_two' h2, St.lift_ok_bind]
  simp only
  rw [St.mod_bind, e3, str2i32_all h1.1 (DigitsOf.ne h1 (by omega)), e4]
  by_cases hk : NumOk ys
  · rw [if_pos hk, if_pos (show ys.length ≤ 10 ∧ value ys ≤ 2147483647 from hk), St.lift_ok_bind]
    simp only
    rw [St.mod_bind, St.mod_bind]
    by_cases h2 : ys.length = 2
    · have : ys.length ≤ 2 := by omega
      simp [h2, St.pure_run]
    · have : ¬ ys.length ≤ 2 := by omega
      simp [h2, this, hs, St.pure_run]
  · rw [if_neg hk, if_neg (show ¬ (ys.length ≤ 10 ∧ value ys ≤ 2147483647) from hk)]
    exact ⟨_, rfl⟩

/-- A day as the first field. -/
theorem field_dayText (p : Profile) (order : DateOrder) (ft : List TokenField) (i : Nat) {D : DayText} (h : D.Ok) :
    if DayFits order D then
      dateTimeField p plainLook order ft i (dayField D, D.bytes) ({}, ()) = (.ok (), (dateDec (dayNums order D), ()))
    else ∃ s, dateTimeField p plainLook order ft i (dayField D, D.bytes) ({}, ()) = (.err .overflow, s) := by
  cases D with
  | numeric x a b c =>
    obtain ⟨hx, ha, hb, hc, h3⟩ := h
    have h := field_date (p := p) (order := order) (ft := ft) (i := i) (d := {}) hx hx ha.1 (DigitsOf.ne ha (by omega))
      hb.1 (DigitsOf.ne hb (by omega)) hc.1 (DigitsOf.ne hc (by omega)) (fun _ => h3) rfl rfl
      (n := assign3 order (decide (3 ≤ a.length)) a b c) rfl
    have e : (DayText.numeric x a b c).bytes = a ++ x :: (b ++ x :: c) := by
      simp [DayText.bytes, numericDate]
    rw [e]
    have hk : DayFits order (.numeric x a b c) ↔ NumOk a ∧ NumOk b ∧ NumOk c :=
      (assign3_all (P := NumOk)).symm
    by_cases hn : NumOk a ∧ NumOk b ∧ NumOk c
    · rw [if_pos hn] at h; rw [if_pos (hk.2 hn)]; exact h
    · rw [if_neg hn] at h; rw [if_neg (fun q => hn (hk.1 q))]; exact h
  | compact ys mm dd =>
    obtain ⟨h1, h2, h3⟩ := h
    have l2 := pair_len h2
    have l3 := pair_len h3
    have l1 := h1.2.1
    have v2 := pair_lt h2
    have v3 := pair_lt h3
    have hd : Digits (ys ++ mm ++ dd) := digits_append.2 ⟨digits_append.2 ⟨h1.1, h2.1⟩, h3.1⟩
    have hnd := numberDate_eq h1 h2 h3 (m := 0) (by decide) ⟨0, {}, 0, false⟩ rfl
    have hk : DayFits order (.compact ys mm dd) ↔ NumOk ys := by
      unfold DayFits
      simp only [dayNums]
      refine ⟨fun q => q.1, fun q => ⟨q, ⟨by omega, by omega⟩, ⟨by omega, by omega⟩⟩⟩
    have htok : ∀ r n, decodeNumberField (ys ++ mm ++ dd) 0 ⟨0, {}, 0, false⟩ = (r, n) →
        numberToken p plainLook (ys ++ mm ++ dd) order ({}, ()) =
          ((r >>= fun _ => .ok ()), ({ tMask := n.tMask, tm := n.tm, fSec := n.fsec, is2 := n.is2 }, ())) := by
      intro r n hr
      unfold numberToken
      rw [St.bind_ok (noLook_run (St.get_run _)), St.ite_run, if_neg (by decide), St.ite_run,
        if_neg (by rw [dotPos_plain hd]; simp), St.ite_run, if_neg (by rw [dotPos_plain hd]; simp), St.ite_run,
        if_pos ⟨by simp; omega, Or.inl (by decide)⟩, St.bind_run]
      have : onNum (decodeNumberField (ys ++ mm ++ dd) 0) {} =
          (r, { tMask := n.tMask, tm := n.tm, fSec := n.fsec, is2 := n.is2 }) := by
        simp only [onNum, St.zoom, hr]
      rw [noLook_run this]
      cases r <;> rfl
    by_cases hn : NumOk ys
    · rw [if_pos hn] at hnd
      rw [if_pos (hk.2 hn)]
      simp only [dateTimeField, dayField, DayText.bytes]
      rw [St.bind_ok (htok _ _ hnd), noLook_run (addMask_run (by simp))]
      simp [dateDec, dayNums]
      rfl
    · rw [if_neg hn] at hnd
      rw [if_neg (fun q => hn (hk.1 q))]
      obtain ⟨s', hnd⟩ := hnd
      simp only [dateTimeField, dayField, DayText.bytes]
      exact ⟨_, St.bind_err (htok _ _ hnd)⟩

/-- The type of the field. -/
def clockField (T : ClockText) : TokenField := if T.colons then .time else .number

/-- Microseconds of the fraction. -/
def clockUs (T : ClockText) : Int := roundMicros (fracF64 T.frac)

theorem clock_frac {T : ClockText} (h : T.Ok) : Digits T.frac ∧ T.frac.length ≤ 7 := by
  cases T with
  | long hh mm ss f => exact ⟨h.2.2.2.1, h.2.2.2.2.2⟩
  | short hh mm => exact ⟨(fun b hb => by cases hb), by simp [ClockText.frac]⟩
  | minSec mm ss fs => exact ⟨h.2.2.1, h.2.2.2.2⟩
  | six hh mm ss f =>
    cases f with
    | none => exact ⟨(fun b hb => by cases hb), by simp [ClockText.frac]⟩
    | some fs => exact ⟨(h.2.2.2 fs rfl).1, (h.2.2.2 fs rfl).2.2⟩
  | four hh mm f =>
    cases f with
    | none => exact ⟨(fun b hb => by cases hb), by simp [ClockText.frac]⟩
    | some fs => exact ⟨(h.2.2 fs rfl).1, (h.2.2 fs rfl).2.2⟩

theorem clockUs_bounds {T : ClockText} (h : T.Ok) : 0 ≤ clockUs T ∧ clockUs T ≤ 1000000 :=
  fracMicros_bounds (f := some T.frac) (clock_frac h).1 (clock_frac h).2

theorem clockUs_nearest {T : ClockText} (h : T.Ok) : NearestMicros T.frac (clockUs T) :=
  fracMicros_nearest (f := some T.frac) (clock_frac h).1 (clock_frac h).2

theorem hmsText_bytes (hh mm ss : Bytes) (f : Option Bytes) : hmsText hh mm ss f = hmsBytes hh mm ss f := by
  unfold hmsText hmsBytes
  cases f <;> simp [fracBytes]

theorem decodeTime_short {hh mm : Bytes} (h1 : DigitsOf 1 10 hh) (h2 : DigitsOf 1 10 mm) (t : TimeS) :
    if value hh ≤ 2147483647 ∧ value mm ≤ 59 then
      decodeTime (hh ++ 58 :: mm) INTERVAL_FULL_RANGE t =
        (.ok (), ⟨DTK_TIME_M, { t.tm with hour := value hh, min := value mm, sec := 0 }, 0⟩)
    else ∃ e t', decodeTime (hh ++ 58 :: mm) INTERVAL_FULL_RANGE t = (.err e, t') := by
  unfold decodeTime
  rw [St.mod_bind, str2i32_digits h1.1 (DigitsOf.ne h1 (by omega)) (Stops.cons rfl)]
  by_cases c1 : value hh ≤ 2147483647
  swap
  · rw [if_neg (fun q => c1 q.1), if_neg (fun q => c1 q.2)]
    exact ⟨_, _, rfl⟩
  rw [if_pos (show hh.length ≤ 10 ∧ value hh ≤ 2147483647 from ⟨h1.2.2, c1⟩), St.lift_ok_bind]
  simp only
  rw [St.mod_bind, str2i32_all h2.1 (DigitsOf.ne h2 (by omega))]
  by_cases c2 : value mm ≤ 2147483647
  swap
  · rw [if_neg (by omega), if_neg (fun q => c2 q.2)]
    exact ⟨_, _, rfl⟩
  rw [if_pos (show mm.length ≤ 10 ∧ value mm ≤ 2147483647 from ⟨h2.2.2, c2⟩), St.lift_ok_bind]
  simp only
  rw [St.mod_bind]
  have e : ∀ t : TimeS, timeTail [] INTERVAL_FULL_RANGE t = (.ok (), { t with fsec := 0, tm := { t.tm with sec := 0 } }) := by
    intro t
    unfold timeTail
    simp only
    rw [St.mod_bind, St.ite_run, if_neg (by decide)]
    rfl
  rw [St.bind_ok (e _), St.get_bind, St.ite_run]
  by_cases c3 : value mm ≤ 59
  · rw [if_pos ⟨c1, c3⟩, if_neg]
    · rfl
    · unfold badTime
      simp only [Bool.or_eq_true, decide_eq_true_eq]
      omega
  · rw [if_neg (fun q => c3 q.2), if_pos]
    · exact ⟨_, _, rfl⟩
    · unfold badTime
      simp only [Bool.or_eq_true, decide_eq_true_eq]
      omega

theorem decodeTime_minSec {mm ss fs : Bytes} (h1 : DigitsOf 1 10 mm) (h2 : DigitsOf 1 10 ss) (h3 : DigitsOf 0 7 fs)
    (t : TimeS) :
    if value mm ≤ 59 ∧ value ss ≤ 60 then
      decodeTime (mm ++ 58 :: (ss ++ 46 :: fs)) INTERVAL_FULL_RANGE t =
        (.ok (), ⟨DTK_TIME_M, { t.tm with hour := 0, min := value mm, sec := value ss }, roundMicros (fracF64 fs)⟩)
    else ∃ e t', decodeTime (mm ++ 58 :: (ss ++ 46 :: fs)) INTERVAL_FULL_RANGE t = (.err e, t') := by
  have hb : 0 ≤ roundMicros (fracF64 fs) ∧ roundMicros (fracF64 fs) ≤ 1000000 :=
    fracMicros_bounds (f := some fs) h3.1 h3.2.2
  unfold decodeTime
  rw [St.mod_bind, str2i32_digits h1.1 (DigitsOf.ne h1 (by omega)) (Stops.cons rfl)]
  by_cases c1 : value mm ≤ 2147483647
  swap
  · rw [if_neg (by omega), if_neg (fun q => c1 q.2)]
    exact ⟨_, _, rfl⟩
  rw [if_pos (show mm.length ≤ 10 ∧ value mm ≤ 2147483647 from ⟨h1.2.2, c1⟩), St.lift_ok_bind]
  simp only
  rw [St.mod_bind, str2i32_digits h2.1 (DigitsOf.ne h2 (by omega)) (Stops.cons rfl)]
  by_cases c2 : value ss ≤ 2147483647
  swap
  · rw [if_neg (by omega), if_neg (fun q => c2 q.2)]
    exact ⟨_, _, rfl⟩
  rw [if_pos (show ss.length ≤ 10 ∧ value ss ≤ 2147483647 from ⟨h2.2.2, c2⟩), St.lift_ok_bind]
  simp only
  rw [St.mod_bind]
  have e : ∀ t : TimeS, timeTail (46 :: fs) INTERVAL_FULL_RANGE t =
      (.ok (), { t with fsec := roundMicros (fracF64 fs),
                        tm := { t.tm with sec := t.tm.min, min := t.tm.hour, hour := 0 } }) := by
    intro t
    unfold timeTail
    simp only [if_true]
    rw [parseFractionalSecond_eq h3.1, if_pos h3.2.2, St.lift_ok_bind]
    rfl
  rw [St.bind_ok (e _), St.get_bind, St.ite_run]
  by_cases c3 : value mm ≤ 59 ∧ value ss ≤ 60
  · rw [if_pos c3, if_neg]
    · rfl
    · unfold badTime
      simp only [Bool.or_eq_true, decide_eq_true_eq]
      omega
  · rw [if_neg c3, if_pos]
    · exact ⟨_, _, rfl⟩
    · unfold badTime
      simp only [Bool.or_eq_true, decide_eq_true_eq]
      omega

/-- `decode_time` on a clock time with colons. -/
theorem decodeTime_clock {T : ClockText} (h : T.Ok) (hc : T.colons = true) (t : TimeS) :
    if T.h ≤ 2147483647 ∧ T.m ≤ 59 ∧ T.s ≤ 60 then
      decodeTime T.bytes INTERVAL_FULL_RANGE t =
        (.ok (), ⟨DTK_TIME_M, { t.tm with hour := T.h, min := T.m, sec := T.s }, clockUs T⟩)
    else ∃ e t', decodeTime T.bytes INTERVAL_FULL_RANGE t = (.err e, t') := by
  cases T with
  | long hh mm ss f =>
    obtain ⟨h1, h2, h3, h4⟩ := h
    have ef : f.getD [] = fracDigits f := by cases f <;> rfl
    have eu : clockUs (.long hh mm ss f) = fracMicros f := by
      unfold clockUs fracMicros; rw [← ef]; rfl
    rw [ef] at h4
    have hr : Readable hh mm ss f := ⟨h1.2.2, h2.2.2, h3.2.2, h4.2.2⟩
    have eb : (ClockText.long hh mm ss f).bytes = hmsBytes hh mm ss f := hmsText_bytes hh mm ss f
    rw [eu, eb]
    show if value hh ≤ 2147483647 ∧ value mm ≤ 59 ∧ value ss ≤ 60 then _ else _
    by_cases hv : value hh ≤ 2147483647 ∧ value mm ≤ 59 ∧ value ss ≤ 60
    · rw [if_pos hv]
      exact decodeTime_ok h1.1 (DigitsOf.ne h1 (by omega)) h2.1 (DigitsOf.ne h2 (by omega)) h3.1
        (DigitsOf.ne h3 (by omega)) h4.1 hr hv.1 hv.2.1 hv.2.2 INTERVAL_FULL_RANGE t
    · rw [if_neg hv]
      exact decodeTime_err h1.1 (DigitsOf.ne h1 (by omega)) h2.1 (DigitsOf.ne h2 (by omega)) h3.1
        (DigitsOf.ne h3 (by omega)) h4.1 (fun q => hv q.2) INTERVAL_FULL_RANGE t
  | short hh mm =>
    have hd := decodeTime_short h.1 h.2 t
    have eu : clockUs (.short hh mm) = 0 := fracMicros_none
    rw [eu]
    exact ite_of hd ⟨fun q => ⟨q.1, q.2.1⟩, fun q => ⟨q.1, q.2, Nat.zero_le 60⟩⟩
  | minSec mm ss fs =>
    have hd := decodeTime_minSec h.1 h.2.1 h.2.2 t
    exact ite_of hd ⟨fun q => q.2, fun q => ⟨Nat.zero_le _, q⟩⟩
  | six => cases hc
  | four => cases hc

theorem numberTime_six {hh mm ss r : Bytes} (h1 : DigitsOf 2 2 hh) (h2 : DigitsOf 2 2 mm) (h3 : DigitsOf 2 2 ss)
    (hr : Stops isDigit r) {m : Nat} (hm : m &&& DTK_TIME_M ≠ DTK_TIME_M) (s : NumS) :
    numberTime (hh ++ (mm ++ (ss ++ r))) 6 m s =
      (.ok .time, { s with tMask := DTK_TIME_M,
                           tm := { s.tm with hour := value hh, min := value mm, sec := value ss } }) := by
  have l1 := pair_len h1
  have l2 := pair_len h2
  have e1 : (hh ++ (mm ++ (ss ++ r))).drop 4 = ss ++ r := by
    rw [show 4 = hh.length + mm.length by omega, ← List.append_assoc, ← List.length_append, List.drop_left]
  have e2 : ((hh ++ (mm ++ (ss ++ r))).drop 2).take 2 = mm := by
    rw [show (hh ++ (mm ++ (ss ++ r))).drop 2 = mm ++ (ss ++ r) by rw [← l1, List.drop_left], ← l2, List.take_left]
  have e3 : (hh ++ (mm ++ (ss ++ r))).take 2 = hh := by rw [← l1, List.take_left]
  unfold numberTime
  rw [St.ite_run, if_pos ⟨hm, rfl⟩, St.mod_bind, e1, str2i32_two h3 hr, St.lift_ok_bind]
  simp only
  rw [St.mod_bind, e2, str2i32_two' h2, St.lift_ok_bind]
  simp only
  rw [St.mod_bind, e3, str2i32_two' h1, St.lift_ok_bind]
  rfl

theorem numberTime_four {hh mm r : Bytes} (h1 : DigitsOf 2 2 hh) (h2 : DigitsOf 2 2 mm)
    (hr : Stops isDigit r) {m : Nat} (hm : m &&& DTK_TIME_M ≠ DTK_TIME_M) (s : NumS) :
    numberTime (hh ++ (mm ++ r)) 4 m s =
      (.ok .time, { s with tMask := DTK_TIME_M,
                           tm := { s.tm with hour := value hh, min := value mm, sec := 0 } }) := by
  have l1 := pair_len h1
  have e1 : (hh ++ (mm ++ r)).drop 2 = mm ++ r := by rw [← l1, List.drop_left]
  have e3 : (hh ++ (mm ++ r)).take 2 = hh := by rw [← l1, List.take_left]
  unfold numberTime
  rw [St.ite_run, if_neg (by omega), St.ite_run, if_pos ⟨hm, rfl⟩, St.mod_bind, e1, str2i32_two h2 hr, St.lift_ok_bind]
  simp only
  rw [St.mod_bind, e3, str2i32_two' h1, St.lift_ok_bind]
  rfl

/-- The digits before the fraction, and the fraction. -/
def compactDigits : ClockText → Bytes
  | .six hh mm ss _ => hh ++ (mm ++ ss)
  | .four hh mm _ => hh ++ mm
  | _ => []

def compactFrac : ClockText → Option Bytes
  | .six _ _ _ f | .four _ _ f => f
  | _ => none

theorem compact_bytes {T : ClockText} (hc : T.colons = false) :
    T.bytes = compactDigits T ++ dotText (compactFrac T) := by
  cases T with
  | six | four => simp [ClockText.bytes, compactDigits, compactFrac]
  | long => cases hc
  | short => cases hc
  | minSec => cases hc

theorem compact_digits {T : ClockText} (h : T.Ok) : Digits (compactDigits T) := by
  cases T with
  | six hh mm ss f => exact digits_append.2 ⟨h.1.1, digits_append.2 ⟨h.2.1.1, h.2.2.1.1⟩⟩
  | four hh mm f => exact digits_append.2 ⟨h.1.1, h.2.1.1⟩
  | long | short | minSec => intro b hb; cases hb

theorem compact_len {T : ClockText} (h : T.Ok) (hc : T.colons = false) :
    (compactDigits T).length = 6 ∨ (compactDigits T).length = 4 := by
  cases T with
  | six hh mm ss f =>
    have := pair_len h.1; have := pair_len h.2.1; have := pair_len h.2.2.1
    left; simp [compactDigits]; omega
  | four hh mm f =>
    have := pair_len h.1; have := pair_len h.2.1
    right; simp [compactDigits]; omega
  | long => cases hc
  | short => cases hc
  | minSec => cases hc

theorem compact_frac {T : ClockText} (h : T.Ok) {fs : Bytes} (hf : compactFrac T = some fs) :
    DigitsOf 1 7 fs ∧ T.frac = fs := by
  cases T with
  | six hh mm ss f => exact ⟨h.2.2.2 fs hf, by simp only [compactFrac] at hf; subst hf; rfl⟩
  | four hh mm f => exact ⟨h.2.2 fs hf, by simp only [compactFrac] at hf; subst hf; rfl⟩
  | long => cases hf
  | short => cases hf
  | minSec => cases hf

theorem compact_nofrac {T : ClockText} (hc : T.colons = false) (hf : compactFrac T = none) : clockUs T = 0 := by
  have : T.frac = [] := by
    cases T with
    | six hh mm ss f => simp only [compactFrac] at hf; subst hf; rfl
    | four hh mm f => simp only [compactFrac] at hf; subst hf; rfl
    | long => cases hc
    | short => cases hc
    | minSec => cases hc
  unfold clockUs
  rw [this]
  exact fracMicros_none

theorem stops_dot (f : Option Bytes) : Stops isDigit (dotText f) := by
  cases f with
  | none => exact Stops.nil _
  | some fs => exact Stops.cons rfl

theorem numberTime_compact {T : ClockText} (h : T.Ok) (hc : T.colons = false) {m : Nat}
    (hm : m &&& DTK_TIME_M ≠ DTK_TIME_M) (s : NumS) :
    numberTime T.bytes (compactDigits T).length m s =
      (.ok .time, { s with tMask := DTK_TIME_M, tm := { s.tm with hour := T.h, min := T.m, sec := T.s } }) := by
  cases T with
  | six hh mm ss f =>
    have l1 := pair_len h.1; have l2 := pair_len h.2.1; have l3 := pair_len h.2.2.1
    have e : (compactDigits (.six hh mm ss f)).length = 6 := by simp [compactDigits]; omega
    rw [e]
    exact numberTime_six h.1 h.2.1 h.2.2.1 (stops_dot f) hm s
  | four hh mm f =>
    have l1 := pair_len h.1; have l2 := pair_len h.2.1
    have e : (compactDigits (.four hh mm f)).length = 4 := by simp [compactDigits]; omega
    rw [e]
    exact numberTime_four h.1 h.2.1 (stops_dot f) hm s
  | long => cases hc
  | short => cases hc
  | minSec => cases hc

/-- `decode_number_field` on a compact clock time. -/
theorem numberField_clock {T : ClockText} (h : T.Ok) (hc : T.colons = false) {m : Nat} (hd : m &&& 14 = 14)
    (hm : m &&& DTK_TIME_M ≠ DTK_TIME_M) (s : NumS) (hs : s.fsec = 0) :
    decodeNumberField T.bytes m s =
      (.ok .time, { s with tMask := DTK_TIME_M, fsec := clockUs T,
                           tm := { s.tm with hour := T.h, min := T.m, sec := T.s } }) := by
  have hb := compact_bytes hc
  have hdg := compact_digits h
  unfold decodeNumberField
  cases hf : compactFrac T with
  | none =>
    have e : T.bytes = compactDigits T := by rw [hb, hf]; simp [dotText]
    have e2 : dotPos T.bytes = (compactDigits T).length := by rw [e, dotPos_plain hdg]
    have e3 : T.bytes.length = (compactDigits T).length := by rw [e]
    rw [St.ite_run, if_neg (by rw [e2, e3]; simp), St.ite_run, if_neg (by rw [hd]; simp), e3,
      numberTime_compact h hc hm, compact_nofrac hc hf]
    obtain ⟨a, b, c, d⟩ := s
    simp only at hs
    subst hs
    rfl
  | some fs =>
    obtain ⟨hfs, hfr⟩ := compact_frac h hf
    have e : T.bytes = compactDigits T ++ 46 :: fs := by rw [hb, hf]; rfl
    have e2 : dotPos T.bytes = (compactDigits T).length := by rw [e, dotPos_dot hdg]
    have e3 : T.bytes.drop (compactDigits T).length = 46 :: (fs ++ []) := by rw [e, List.drop_left, List.append_nil]
    have e4 : T.bytes.length ≠ (compactDigits T).length := by rw [e]; simp
    rw [St.ite_run, if_pos (by rw [e2]; exact e4), e2, e3, str2d_frac hfs.1 (Stops.nil _), if_pos hfs.2.2,
      St.lift_ok_bind]
    simp only
    rw [St.mod_bind, numberTime_compact h hc hm]
    unfold clockUs
    rw [hfr]

/-- `decode_number` on a compact clock time without fraction. -/
theorem decodeNumber_clock {T : ClockText} (h : T.Ok) (hc : T.colons = false) (hf : compactFrac T = none) {m : Nat}
    (hd : m &&& 14 = 14) (hm : m &&& DTK_TIME_M ≠ DTK_TIME_M) (order : DateOrder) (s : NumS) (hs : s.fsec = 0) :
    decodeNumber T.bytes false m order s =
      (.ok (), { s with tMask := DTK_TIME_M, fsec := clockUs T,
                        tm := { s.tm with hour := T.h, min := T.m, sec := T.s } }) := by
  have hb := compact_bytes hc
  have hdg := compact_digits h
  have hl := compact_len h hc
  have e : T.bytes = compactDigits T := by rw [hb, hf]; simp [dotText]
  have e3 : T.bytes.length = (compactDigits T).length := by rw [e]
  have hne : T.bytes ≠ [] := by intro q; rw [q] at e3; simp at e3; omega
  have hv : value T.bytes ≤ 2147483647 := by
    have := value_lt (ds := T.bytes) (by rw [e]; exact hdg)
    have h6 : 10 ^ T.bytes.length ≤ 10 ^ 6 := Nat.pow_le_pow_right (by omega) (by omega)
    omega
  rw [decodeNumber_digits (by rw [e]; exact hdg) hne, if_pos ⟨by omega, hv⟩]
  unfold decodeNumberVal
  rw [St.ite_run, if_neg (by omega)]
  have hnb : numberByMask T.bytes (value T.bytes) false m order { s with tMask := 0 } =
      (.ok false, { s with tMask := DTK_TIME_M, fsec := clockUs T,
                           tm := { s.tm with hour := T.h, min := T.m, sec := T.s } }) := by
    unfold numberByMask
    simp only [hd]
    rw [if_neg (by decide), if_neg (by decide), if_neg (by decide), if_neg (by decide), if_neg (by decide),
      if_neg (by decide), if_pos trivial, St.bind_ok (numberField_clock h hc hd hm ⟨0, s.tm, s.fsec, s.is2⟩ hs)]
    rfl
  rw [St.bind_ok hnb]
  simp [St.mod_run]

end Pg
