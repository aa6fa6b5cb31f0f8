import Verif.Lemmas.DateInput
import Verif.Lemmas.LetterCase
import Verif.Spec.Meridiem

/-! # The words `am` and `pm` -/

namespace Pg
open Spec

/-- The word in small letters. -/
def merWord (pm : Bool) : Bytes := if pm then b!"pm" else b!"am"

/-- The value of the word in the keyword table. -/
def merVal (pm : Bool) : Int := if pm then 1 else 0

theorem lowerB_letter (b : Nat) : lowerB b = smallLetter b := by
  unfold lowerB smallLetter isUpper
  simp only [Bool.and_eq_true, decide_eq_true_eq]

theorem hour24_le {pm : Bool} {h k : Nat} (e : hour24 pm h = some k) : k ≤ 23 := by
  unfold hour24 at e
  split at e
  · injection e with e
    have := Nat.mod_lt h (show 12 > 0 by decide)
    split at e <;> omega
  · cases e

theorem hour24_in {pm : Bool} {h k : Nat} (e : hour24 pm h = some k) : h ≤ 12 := by
  unfold hour24 at e
  split at e
  · assumption
  · cases e

theorem merWord_lower {pm : Bool} {w : Bytes} (h : MeridiemWord pm w) : lower w = merWord pm := by
  unfold MeridiemWord SameButCase at h
  unfold lower
  rw [show lowerB = smallLetter from funext lowerB_letter, h]
  cases pm <;> decide

theorem merWord_letters {pm : Bool} {w : Bytes} (h : MeridiemWord pm w) :
    Letters w ∧ w ≠ [] ∧ w.length = 2 := by
  have hl := merWord_lower h
  have hlen : w.length = 2 := by
    have := congrArg List.length hl
    cases pm <;> simpa [lower, merWord] using this
  refine ⟨?_, by rintro rfl; simp at hlen, hlen⟩
  intro b hb
  have : lowerB b ∈ merWord pm := by rw [← hl]; exact List.mem_map_of_mem hb
  have hr : 97 ≤ lowerB b ∧ lowerB b ≤ 122 := by
    revert this
    generalize lowerB b = x
    cases pm <;> simp [merWord] <;> omega
  rw [lowerB_letter, smallLetter] at hr
  rw [isAlpha_iff]
  split at hr <;> omega

theorem look_mer {σ : Type} (pm : Bool) (i : Nat) (s : σ × Unit) :
    lookDate plainLook i (merWord pm) s = (.ok (.ampm, merVal pm), s) := by
  have : searchDate (merWord pm) = .ok (some ⟨merWord pm, .ampm, merVal pm⟩) := by
    cases pm <;> decide +kernel
  unfold lookDate plainLook
  simp only [this]
  rfl

/-- src/parse.rs:1868-1878, the second half. -/
theorem finish_mer (p : Profile) {d : Dec} {tm : PgTime} (pm : Bool)
    (hv : d.tm.validateDate p d.fMask d.isJulian d.is2 d.bc = .ok tm) (hm : d.mer = merVal pm) {h : Nat}
    (hh : tm.hour = h) :
    match hour24 pm h with
    | some k => finishFields p d = (.ok (), { d with tm := { tm with hour := k } })
    | none => ∃ s, finishFields p d = (.err .overflow, s) := by
  obtain ⟨tm0, dType, fSec, fMask, tMask, pType, isJulian, is2, bc, mer, textMonth⟩ := d
  simp only at hv hm
  subst hm
  unfold finishFields
  rw [St.get_bind]
  simp only
  rw [hv, St.lift_ok_bind, St.mod_bind, St.get_bind]
  simp only [hh]
  unfold hour24
  by_cases h12 : h ≤ 12
  · rw [if_pos h12]
    simp only
    have he : tm = { tm with hour := (h : Int) } := by rw [← hh]
    rw [St.ite_run, if_neg (by omega), St.ite_run]
    cases pm with
    | false =>
      simp only [merVal, Bool.false_eq_true, if_false, true_and]
      by_cases e : h = 12
      · rw [if_pos (by omega), e]; rfl
      · rw [if_neg (by omega), St.ite_run, if_neg (by omega), Nat.mod_eq_of_lt (by omega), Nat.add_zero, ← he]
        rfl
    | true =>
      simp only [merVal, if_true, true_and]
      rw [if_neg (by omega), St.ite_run]
      by_cases e : h = 12
      · rw [if_neg (by omega), e]
        rw [e] at he
        have e12 : ((12 % 12 + 12 : Nat) : Int) = ((12 : Nat) : Int) := rfl
        rw [e12, ← he]; rfl
      · rw [if_pos (by omega), chk32_ok (by omega), Nat.mod_eq_of_lt (by omega)]
        rfl
  · rw [if_neg h12]
    simp only
    rw [St.ite_run, if_pos ⟨by cases pm <;> decide, by omega⟩]
    exact ⟨_, rfl⟩

/-- The word in a timestamp. -/
theorem field_mer {p : Profile} {order : DateOrder} {ft : List TokenField} {i : Nat} {d : Dec} (pm : Bool)
    (hm : d.fMask &&& 512 = 0) :
    dateTimeField p plainLook order ft i (.string, merWord pm) (d, ()) =
      (.ok (), ({ d with mer := merVal pm, tMask := 512, fMask := d.fMask ||| 512 }, ())) := by
  have ha : wordAction ft i .ampm (merVal pm) d = (.ok (), { d with mer := merVal pm, tMask := 512 }) := by
    unfold wordAction
    rw [St.mod_bind]
    rfl
  have e : wordToken plainLook ft i (merWord pm) (d, ()) =
      (.ok false, ({ d with mer := merVal pm, tMask := 512 }, ())) := by
    unfold wordToken
    rw [St.bind_ok (look_mer pm i _)]
    simp only
    rw [St.ite_run, if_neg (by decide), St.bind_ok (noLook_run ha)]
    rfl
  unfold dateTimeField
  simp only
  rw [St.bind_ok e]
  simp only [Bool.false_eq_true, if_false]
  rw [noLook_run (addMask_run (by rw [Nat.and_comm]; exact hm))]

/-- The word in a time of day. -/
theorem fieldT_mer {p : Profile} {order : DateOrder} {ft : List TokenField} {i : Nat} {d : Dec} (pm : Bool)
    (hm : d.fMask &&& 512 = 0) :
    timeOnlyField p plainLook order ft i (.string, merWord pm) (d, ()) =
      (.ok (), ({ d with mer := merVal pm, tMask := 512, fMask := d.fMask ||| 512 }, ())) := by
  have ha : wordActionT ft i .ampm (merVal pm) d = (.ok (), { d with mer := merVal pm, tMask := 512 }) := by
    unfold wordActionT
    rw [St.mod_bind]
    rfl
  have e : wordTokenT plainLook ft i (merWord pm) (d, ()) =
      (.ok false, ({ d with mer := merVal pm, tMask := 512 }, ())) := by
    unfold wordTokenT
    rw [St.bind_ok (look_mer pm i _)]
    simp only
    rw [St.ite_run, if_neg (by decide), St.bind_ok (noLook_run ha)]
    rfl
  unfold timeOnlyField
  simp only
  rw [St.bind_ok e]
  simp only [Bool.false_eq_true, if_false]
  rw [noLook_run (addMask_run (by rw [Nat.and_comm]; exact hm))]

theorem validate_time_mer (p : Profile) (tm : PgTime) :
    tm.validateDate p 32256 false false false = .ok tm := by
  unfold PgTime.validateDate PgTime.validateYear PgTime.validateDoy PgTime.validateMonthDay
  rfl

/-- A clock time and the word as a time of day. -/
theorem timeOnly_mer (p : Profile) (order : DateOrder) (pm : Bool) {f : Bytes} {tm : PgTime} {fs : Int}
    (h : decodeTime f INTERVAL_FULL_RANGE ⟨0, {}, 0⟩ = (.ok (), ⟨DTK_TIME_M, tm, fs⟩)) {hr : Nat}
    (hh : tm.hour = hr) :
    match hour24 pm hr with
    | some k => ∃ d, d.tm = { tm with hour := k } ∧ d.fSec = fs ∧
        decodeTimeOnly p plainLook order [(.time, f), (.string, merWord pm)] ({}, ()) =
          (if badTimeOnly d then .err .overflow else .ok (), (d, ()))
    | none => ∃ e s, decodeTimeOnly p plainLook order [(.time, f), (.string, merWord pm)] ({}, ()) =
        (.err e, s) := by
  have e1 : (onTime (decodeTime f INTERVAL_FULL_RANGE)) {} =
      (.ok (), { tm := tm, fSec := fs, tMask := DTK_TIME_M }) := by
    simp only [onTime, St.zoom, h]
  have e2 : ∀ ft, timeOnlyField p plainLook order ft 0 (.time, f) ({}, ()) =
      (.ok (), ({ tm := tm, fSec := fs, tMask := 31744, fMask := 31744 }, ())) := by
    intro ft
    unfold timeOnlyField
    simp only
    rw [St.bind_ok (noLook_run e1), noLook_run (addMask_run (by simp))]
    simp
  have e3 := fun ft => fieldT_mer (p := p) (order := order) (ft := ft) (i := 1) pm
    (d := { tm := tm, fSec := fs, tMask := 31744, fMask := 31744 })
    (show (31744 : Nat) &&& 512 = 0 by decide)
  have hfin := finish_mer p pm (d := { tm := tm, fSec := fs, tMask := 512, fMask := 32256, mer := merVal pm })
    (validate_time_mer p tm) rfl hh
  have hloop : ∀ ft, timeOnlyLoop p plainLook order ft [(.time, f), (.string, merWord pm)] 0 ({}, ()) =
      (.ok (), ({ tm := tm, fSec := fs, tMask := 512, fMask := 32256, mer := merVal pm }, ())) := by
    intro ft
    rw [timeOnlyLoop, St.bind_ok (e2 ft), timeOnlyLoop, St.bind_ok (e3 ft)]
    have h9 : (31744 : Nat) ||| 512 = 32256 := by decide
    simp only [h9]
    rfl
  unfold decodeTimeOnly
  rw [St.bind_ok (hloop _)]
  cases hk : hour24 pm hr with
  | none =>
    rw [hk] at hfin
    obtain ⟨s, hfin⟩ := hfin
    exact ⟨_, _, St.bind_err (noLook_run hfin)⟩
  | some k =>
    rw [hk] at hfin
    simp only at hfin ⊢
    refine ⟨{ tm := { tm with hour := k }, fSec := fs, tMask := 512, fMask := 32256, mer := merVal pm }, rfl, rfl, ?_⟩
    rw [St.bind_ok (noLook_run hfin), St.bind_ok (noLook_run (St.get_run _)), St.ite_run]
    split <;> rfl

theorem timeOnly_mer_err (p : Profile) (order : DateOrder) {f : Bytes} {e : Err} {t : TimeS} {l : List Field}
    (h : decodeTime f INTERVAL_FULL_RANGE ⟨0, {}, 0⟩ = (.err e, t)) :
    ∃ d, decodeTimeOnly p plainLook order ((.time, f) :: l) ({}, ()) = (.err e, d) := by
  have e1 : (onTime (decodeTime f INTERVAL_FULL_RANGE)) {} =
      (.err e, { tm := t.tm, fSec := t.fsec, tMask := t.tMask }) := by
    simp only [onTime, St.zoom, h]
  unfold decodeTimeOnly timeOnlyLoop timeOnlyField
  simp only [St.bind_run, noLook, e1]
  exact ⟨_, rfl⟩

/-- The space before the word. -/
def gapBytes (gap : Bool) : Bytes := if gap then [32] else []

theorem scans_mer (u : TokenField) (gap pm bc : Bool) {w : Bytes} (hw : MeridiemWord pm w) :
    Scans u (gapBytes gap ++ (w ++ bcMark bc)) ((.string, merWord pm) :: bcFields bc) := by
  obtain ⟨h1, h2, -⟩ := merWord_letters hw
  have h := Scans.wordSpace (u := u) (rest := bcMark bc) h1 h2 (by
    cases bc
    · exact Or.inl rfl
    · exact Or.inr ⟨_, rfl⟩) (scans_bc u bc)
  rw [merWord_lower hw] at h
  cases gap
  · exact h
  · exact Scans.space h

theorem scans_time_mer (u : TokenField) (gap pm bc : Bool) {w : Bytes} (hw : MeridiemWord pm w)
    {hh mm ss : Bytes} {f : Option Bytes} (h1 : Digits hh) (n1 : hh ≠ []) (h2 : Digits mm) (h3 : Digits ss)
    (hf : Digits (fracDigits f)) :
    Scans u (hmsBytes hh mm ss f ++ (gapBytes gap ++ (w ++ bcMark bc)))
      ((.time, hmsBytes hh mm ss f) :: (.string, merWord pm) :: bcFields bc) := by
  have h := Scans.time (u := u) (rest := gapBytes gap ++ (w ++ bcMark bc)) h1 n1 (hms_timeB (f := f) h2 h3 hf) (by
    obtain ⟨k1, k2, -⟩ := merWord_letters hw
    cases gap
    · cases w with
      | nil => exact absurd rfl k2
      | cons c t =>
        refine Stops.cons ?_
        have := k1 c (by simp)
        rw [isAlpha_iff] at this
        simp only [isTimeB, isDigit, Bool.or_eq_false_iff, Bool.and_eq_false_iff, decide_eq_false_iff_not]
        omega
    · exact Stops.cons rfl) (scans_mer u gap pm bc hw)
  rw [hmsBytes]
  have e : hh ++ 58 :: (mm ++ 58 :: (ss ++ fracBytes f)) ++ (gapBytes gap ++ (w ++ bcMark bc)) =
      hh ++ 58 :: (mm ++ 58 :: (ss ++ fracBytes f) ++ (gapBytes gap ++ (w ++ bcMark bc))) := by simp
  rw [e]
  exact h

/-- Reading `hh:mm:ss[.f]` and the word as a time of day. -/
theorem time_mer (p : Profile) (u : TokenField) {c : Caches} (hc : c.Ok) (order : DateOrder) (gap pm : Bool)
    {w : Bytes} (hw : MeridiemWord pm w)
    {hh mm ss : Bytes} {f : Option Bytes} (h1 : Digits hh) (n1 : hh ≠ [])
    (h2 : Digits mm) (n2 : mm ≠ []) (h3 : Digits ss) (n3 : ss ≠ []) (hf : Digits (fracDigits f))
    (hr : Readable hh mm ss f) {text : Bytes} (ht : text = hmsBytes hh mm ss f ++ (gapBytes gap ++ w)) :
    match hour24 pm (value hh) with
    | none => (Time.tryFromStr p u c text (-1) order).IsErr
    | some k =>
      if value mm ≤ 59 ∧ value ss ≤ 60 then
        Time.tryFromStr p u c text (-1) order = .ok ⟨clockValue k (value mm) (value ss) (fracMicros f)⟩
      else (Time.tryFromStr p u c text (-1) order).IsErr := by
  have hsc := scans_time_mer u gap pm false hw (f := f) h1 n1 h2 h3 hf
  have et : hmsBytes hh mm ss f ++ (gapBytes gap ++ (w ++ bcMark false)) = text := by rw [ht]; simp [bcMark]
  rw [et] at hsc
  have hl : text.length ≤ 128 := by
    have := (merWord_letters hw).2.2
    obtain ⟨r1, r2, r3, r4⟩ := hr
    rw [ht]
    cases f <;> cases gap <;> simp [hmsBytes, gapBytes, fracBytes, fracDigits] at r4 ⊢ <;> omega
  have hs := scan_of hsc (by rw [ht, hmsBytes]; simp) hl (by simp [bcFields])
  change scan u text = .ok [(.time, hmsBytes hh mm ss f), (.string, merWord pm)] at hs
  have hb := fracMicros_bounds hf hr.2.2.2
  by_cases hg : value hh ≤ 2147483647 ∧ value mm ≤ 59 ∧ value ss ≤ 60
  · obtain ⟨g1, g2, g3⟩ := hg
    have hd := decodeTime_ok h1 n1 h2 n2 h3 n3 hf hr g1 g2 g3 INTERVAL_FULL_RANGE ⟨0, {}, 0⟩
    have hrun := timeOnly_mer p order pm hd rfl
    cases hk : hour24 pm (value hh) with
    | none =>
      rw [hk] at hrun
      obtain ⟨e, ⟨d, w'⟩, hrun⟩ := hrun
      simp only
      rw [time_run p u hc (-1) order hs hrun]
      exact ⟨_, rfl⟩
    | some k =>
      rw [hk] at hrun
      obtain ⟨d, e1, e2, hrun⟩ := hrun
      have hk23 : k ≤ 23 := by
        unfold hour24 at hk
        split at hk
        · injection hk with hk
          have := Nat.mod_lt (value hh) (show 12 > 0 by decide)
          split at hk <;> omega
        · cases hk
      simp only
      rw [if_pos ⟨g2, g3⟩, time_run p u hc (-1) order hs hrun, if_neg, Res.bind_ok, e2]
      · rw [time_fromPgtime p (h := k) (m := value mm) (s := value ss) (by rw [e1]) (by rw [e1]) (by rw [e1])
          (by omega) (by omega) (by omega) hb]
        rfl
      · rw [badTimeOnly_iff (h := k) (m := value mm) (s := value ss) (f := fracMicros f) (by rw [e1]) (by rw [e1])
          (by rw [e1]) e2]
        omega
  · obtain ⟨e, t, hd⟩ := decodeTime_err h1 n1 h2 n2 h3 n3 hf (f := f) (fun q => hg q.2) INTERVAL_FULL_RANGE ⟨0, {}, 0⟩
    obtain ⟨⟨d, w'⟩, hrun⟩ := timeOnly_mer_err p order (l := [(.string, merWord pm)]) hd
    have herr : (Time.tryFromStr p u c text (-1) order).IsErr := by
      rw [time_run p u hc (-1) order hs hrun]; exact ⟨_, rfl⟩
    cases hk : hour24 pm (value hh) with
    | none => exact herr
    | some k =>
      simp only
      rw [if_neg]
      · exact herr
      · rintro ⟨q1, q2⟩
        refine hg ⟨?_, q1, q2⟩
        unfold hour24 at hk
        split at hk
        · omega
        · cases hk

/-- The end of `decode_date_time` when a full date and the word have been read. -/
theorem run_day_mer (p : Profile) (order : DateOrder) (pm : Bool) {l : List Field} {X : Dec} {ys : Bytes} {m d : Int}
    {bc : Bool} {h : Nat}
    (hl : dateTimeLoop p plainLook order (l.map Prod.fst) l 0 ({}, ()) = (.ok (), (withBc X bc, ())))
    (hys : Digits ys) (hk : NumOk ys) (h1 : X.tm.year = value ys) (h2 : X.tm.mon = m) (h3 : X.tm.mday = d)
    (h4 : X.is2 = decide (ys.length ≤ 2)) (h5 : X.bc = false) (h6 : X.isJulian = false)
    (h7 : X.mer = merVal pm) (h8 : X.dType = .date) (hm : X.fMask &&& 14 = 14) (hd : X.fMask &&& 32768 = 0)
    (hh : X.tm.hour = h) :
    match namedDay ys m d bc, hour24 pm h with
    | some c, some k => c.Real ∧ ∃ x, decodeDateTime p plainLook order l ({}, ()) = (.ok (), (x, ())) ∧
        x.dType = .date ∧ x.tm.year = c.y ∧ x.tm.mon = c.m ∧ x.tm.mday = c.d ∧ x.tm.hour = k ∧
        x.tm.min = X.tm.min ∧ x.tm.sec = X.tm.sec ∧ x.fSec = X.fSec
    | _, _ => ∃ s, decodeDateTime p plainLook order l ({}, ()) = (.err .overflow, s) := by
  subst h2 h3
  obtain ⟨Y, hY⟩ : ∃ Y, Y = withBc X bc := ⟨_, rfl⟩
  have e : Y.tm = X.tm ∧ Y.is2 = X.is2 ∧ Y.bc = bc ∧ Y.isJulian = X.isJulian ∧ Y.mer = X.mer ∧
      Y.dType = X.dType ∧ Y.fSec = X.fSec ∧ Y.fMask &&& 14 = 14 ∧ Y.fMask &&& 32768 = 0 := by
    subst hY
    cases bc
    · exact ⟨rfl, rfl, h5, rfl, rfl, rfl, rfl, hm, hd⟩
    · refine ⟨rfl, rfl, rfl, rfl, rfl, rfl, rfl, ?_, ?_⟩
      · show (X.fMask ||| 262144) &&& 14 = 14
        rw [Nat.and_or_distrib_right, hm]; rfl
      · show (X.fMask ||| 262144) &&& 32768 = 0
        rw [Nat.and_or_distrib_right, hd]; rfl
  obtain ⟨e1, e2, e3, e4, e5, e6, e7, e8, e9⟩ := e
  rw [← hY] at hl
  have hv : Y.tm.validateDate p Y.fMask Y.isJulian Y.is2 Y.bc =
      match inputYear ys bc with
      | none => .err .overflow
      | some y => if (⟨y, X.tm.mon, X.tm.mday⟩ : YMD).Real then .ok { X.tm with year := y } else .err .overflow := by
    rw [e4, h6, validateDate_gen p Y.tm Y.is2 Y.bc e8 e9 (by rw [e1, h1]; have := hk.2; omega), e1, e2, e3, h1, h4,
      yearOf_eq hys]
    cases inputYear ys bc <;> rfl
  have hbad : Y.tm.validateDate p Y.fMask Y.isJulian Y.is2 Y.bc = .err .overflow →
      ∃ s, decodeDateTime p plainLook order l ({}, ()) = (.err .overflow, s) := by
    intro hv
    have e : finishFields p Y = (.err .overflow, Y) := by
      unfold finishFields
      rw [St.get_bind, hv]
      rfl
    unfold decodeDateTime
    rw [St.bind_ok hl]
    exact ⟨_, St.bind_err (noLook_run e)⟩
  unfold namedDay
  cases hiy : inputYear ys bc with
  | none =>
    rw [hiy] at hv
    exact hbad hv
  | some y =>
    rw [hiy] at hv
    simp only at hv ⊢
    by_cases hr : (⟨y, X.tm.mon, X.tm.mday⟩ : YMD).Real
    · rw [if_pos hr] at hv ⊢
      have hfin := finish_mer p pm (d := Y) (h := h) hv (by rw [e5, h7]) hh
      cases hk24 : hour24 pm h with
      | none =>
        rw [hk24] at hfin
        obtain ⟨s, hfin⟩ := hfin
        unfold decodeDateTime
        rw [St.bind_ok hl]
        exact ⟨_, St.bind_err (noLook_run hfin)⟩
      | some k =>
        rw [hk24] at hfin
        simp only at hfin ⊢
        refine ⟨hr, { Y with tm := { X.tm with year := y, hour := k } }, ?_, ?_⟩
        · unfold decodeDateTime
          rw [St.bind_ok hl, St.bind_ok (noLook_run hfin), St.bind_ok (noLook_run (St.get_run _)), St.ite_run,
            if_neg (by simp [e8])]
          rfl
        · exact ⟨by simp only [e6, h8], rfl, rfl, rfl, rfl, rfl, rfl, e7⟩
    · rw [if_neg hr] at hv ⊢
      exact hbad hv

/-- `Timestamp::try_from_str` on a numeric date, a clock time and the word. -/
theorem timestamp_mer (p : Profile) (u : TokenField) {cs : Caches} (hcs : cs.Ok) (order : DateOrder)
    (bc : Bool) (sep : DateSep) (gap pm : Bool) {w : Bytes} (hw : MeridiemWord pm w) {a b c : Bytes} {x : Nat}
    (hx : isSep x) (ha : Digits a) (na : a ≠ []) (hb : Digits b) (nb : b ≠ []) (hc : Digits c) (nc : c ≠ [])
    (la : a.length ≤ 10) (lb : b.length ≤ 10) (lc : c.length ≤ 10)
    (h3 : 3 ≤ a.length ∨ order = .ymd → b.length ≠ 3) {hh mm ss : Bytes} {f : Option Bytes}
    (k1 : Digits hh) (m1 : hh ≠ []) (k2 : Digits mm) (m2 : mm ≠ []) (k3 : Digits ss) (m3 : ss ≠ [])
    (kf : Digits (fracDigits f)) (hr : Readable hh mm ss f) {text : Bytes}
    (htext : text = numericDate x a b c ++ sep.bytes ++ hmsBytes hh mm ss f ++ gapBytes gap ++ w ++ bcMark bc) :
    match inputDay order a b c bc, hour24 pm (value hh) with
    | some day, some k =>
      if (value mm ≤ 59 ∧ value ss ≤ 60) ∧ TsRange (instant day ⟨k, value mm, value ss, fracMicros f⟩) then
        Timestamp.tryFromStr p u cs text (-1) order = .ok ⟨instant day ⟨k, value mm, value ss, fracMicros f⟩⟩
      else (Timestamp.tryFromStr p u cs text (-1) order).IsErr
    | _, _ => (Timestamp.tryFromStr p u cs text (-1) order).IsErr := by
  have et : text = a ++ x :: (b ++ x :: (c ++ (sep.bytes ++ (hmsBytes hh mm ss f ++
      (gapBytes gap ++ (w ++ bcMark bc)))))) := by
    rw [htext]; simp [numericDate]
  have hfb := fracMicros_bounds kf hr.2.2.2
  have htm := scans_time_mer u gap pm bc hw (f := f) k1 m1 k2 k3 kf
  have hsc : Scans u text ((.date, a ++ x :: (b ++ x :: c)) ::
      (sep.fields ++ (.time, hmsBytes hh mm ss f) :: (.string, merWord pm) :: bcFields bc)) := by
    rw [et]
    exact scans_date_sep u sep hx ha na hb nb hc k1 m1 htm
  have hlen : text.length ≤ 128 := by
    have := (merWord_letters hw).2.2
    obtain ⟨r1, r2, r3, r4⟩ := hr
    rw [et]
    cases f <;> cases gap <;> cases bc <;> cases sep <;>
      simp [hmsBytes, gapBytes, fracBytes, fracDigits, bcMark, DateSep.bytes] at r4 ⊢ <;> omega
  have hs := scan_of hsc (by rw [et]; simp) hlen (by
    cases bc <;> cases sep <;> simp [bcFields, DateSep.fields])
  have hloop := loop_stamp_tail p order ((.string, merWord pm) :: bcFields bc) sep hx ha na hb nb hc nc h3 k1 m1 k2 m2
    k3 m3 kf (l := _) rfl
  have herr : ∀ e s, decodeDateTime p plainLook order ((.date, a ++ x :: (b ++ x :: c)) ::
      (sep.fields ++ (.time, hmsBytes hh mm ss f) :: (.string, merWord pm) :: bcFields bc)) ({}, ()) = (.err e, s) →
      (Timestamp.tryFromStr p u cs text (-1) order).IsErr := by
    rintro e ⟨d, w'⟩ hrun
    rw [timestamp_run p u hcs (-1) order hs hrun]; exact ⟨_, rfl⟩
  by_cases hk : (NumOk a ∧ NumOk b ∧ NumOk c) ∧ Readable hh mm ss f ∧
        ClockInput (value hh) (value mm) (value ss) (fracMicros f)
  · rw [if_pos hk] at hloop
    obtain ⟨i, hloop⟩ := hloop
    rw [loop_cons (field_mer pm (show (31758 : Nat) &&& 512 = 0 by decide))] at hloop
    rw [loop_bc p order _ _ _ bc (show ((31758 : Nat) ||| 512) &&& 262144 = 0 by decide)] at hloop
    have hk' := (assign3_all (order := order) (y := decide (3 ≤ a.length)) (P := NumOk)).1 hk.1
    have hrun := run_day_mer p order pm (m := value (assign3 order (decide (3 ≤ a.length)) a b c).2.1)
      (d := value (assign3 order (decide (3 ≤ a.length)) a b c).2.2) (h := value hh) hloop (assign3_digits ha hc) hk'.1
      rfl rfl rfl rfl rfl rfl rfl rfl (show ((31758 : Nat) ||| 512) &&& 14 = 14 by decide)
      (show ((31758 : Nat) ||| 512) &&& 32768 = 0 by decide) rfl
    change match inputDay order a b c bc, hour24 pm (value hh) with | some c, some k => _ | _, _ => _ at hrun
    cases hday : inputDay order a b c bc with
    | none =>
      rw [hday] at hrun
      obtain ⟨s, hrun⟩ := hrun
      exact herr _ _ hrun
    | some day =>
      cases hh24 : hour24 pm (value hh) with
      | none =>
        rw [hday, hh24] at hrun
        obtain ⟨s, hrun⟩ := hrun
        exact herr _ _ hrun
      | some k =>
        rw [hday, hh24] at hrun
        obtain ⟨hre, d, hrun, e1, e2, e3, e4, e5, e6, e7, e8⟩ := hrun
        simp only
        have hk23 := hour24_le hh24
        obtain ⟨c1, c2, c3, -⟩ := hk.2.2
        have hts := timestamp_ofDec p (t := ⟨k, value mm, value ss, fracMicros f⟩) e1 e2 e3 e4 e5 e6 e7 e8 hre
          (by simp only; omega) (by simp only; omega) (by simp only; omega) hfb
        rw [timestamp_run p u hcs (-1) order hs hrun, Res.bind_ok]
        by_cases hd : TsRange (instant day ⟨k, value mm, value ss, fracMicros f⟩)
        · rw [if_pos hd] at hts
          rw [if_pos ⟨⟨c2, c3⟩, hd⟩, hts, Res.bind_ok, timestamp_noTypmod]
        · rw [if_neg hd] at hts
          rw [if_neg (fun q => hd q.2)]
          obtain ⟨e, he⟩ := hts
          rw [he]; exact ⟨_, rfl⟩
  · rw [if_neg hk] at hloop
    obtain ⟨e, s, hloop⟩ := hloop
    have her := herr _ _ (dateTime_err p order hloop)
    cases hday : inputDay order a b c bc with
    | none => exact her
    | some day =>
      cases hh24 : hour24 pm (value hh) with
      | none => exact her
      | some k =>
        simp only
        rw [if_neg]
        · exact her
        · rintro ⟨⟨q1, q2⟩, hts⟩
          have hk12 := hour24_in hh24
          have hk23 := hour24_le hh24
          have hnk : ¬ (NumOk a ∧ NumOk b ∧ NumOk c) := fun q => hk ⟨q, hr, by omega, q1, q2, fun h => by omega⟩
          obtain ⟨hre, hy⟩ := inputDay_big (order := order) (bc := bc) ha hc la lb lc hnk day hday
          have := dateRange_of_tsRange (t := ⟨k, value mm, value ss, fracMicros f⟩)
            (by unfold Clock.micros; simp only; omega) hts hre
          omega

end Pg
