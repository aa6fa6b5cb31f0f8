import Verif.Lemmas.ClockParse
import Verif.Lemmas.ParseRun
import Verif.Spec.ClockInput

/-! # A clock time as the whole text of a time of day -/

namespace Pg
open Spec

theorem validate_time (p : Profile) (tm : PgTime) :
    tm.validateDate p DTK_TIME_M false false false = .ok tm := by
  unfold PgTime.validateDate PgTime.validateYear PgTime.validateDoy PgTime.validateMonthDay
  rfl

/-- The decoder's state after a clock time. -/
def timeDec (tm : PgTime) (fs : Int) : Dec :=
  { tm := tm, fSec := fs, fMask := DTK_TIME_M, tMask := DTK_TIME_M }

/-- Decoding a single time field. -/
theorem timeOnly_ok (p : Profile) (order : DateOrder) {f : Bytes} {tm : PgTime} {fs : Int}
    (h : decodeTime f INTERVAL_FULL_RANGE ⟨0, {}, 0⟩ = (.ok (), ⟨DTK_TIME_M, tm, fs⟩)) :
    decodeTimeOnly p plainLook order [(.time, f)] ({}, ()) =
      (if badTimeOnly (timeDec tm fs) then .err .overflow else .ok (), (timeDec tm fs, ())) := by
  unfold decodeTimeOnly timeOnlyLoop timeOnlyField
  have e : (onTime (decodeTime f INTERVAL_FULL_RANGE)) {} =
      (.ok (), { tm := tm, fSec := fs, tMask := DTK_TIME_M }) := by
    simp only [onTime, St.zoom, h]
  simp only [St.bind_run, noLook, e, addMask, timeOnlyLoop, finishFields, St.get_run, St.mod_run,
    St.pure_run, St.lift_run, St.ite_run]
  simp only [Nat.and_zero, ne_eq, not_true_eq_false, if_false, Nat.zero_or]
  rw [validate_time]
  simp only [not_true_eq_false, false_and, if_false]
  by_cases hb : badTimeOnly (timeDec tm fs) = true
  · rw [if_pos hb]
    have := hb
    unfold timeDec at this ⊢
    simp [this, St.fail_run]
  · rw [if_neg hb]
    have := hb
    unfold timeDec at this ⊢
    simp [this]

theorem timeOnly_err (p : Profile) (order : DateOrder) {f : Bytes} {e : Err} {t : TimeS}
    (h : decodeTime f INTERVAL_FULL_RANGE ⟨0, {}, 0⟩ = (.err e, t)) :
    ∃ d, decodeTimeOnly p plainLook order [(.time, f)] ({}, ()) = (.err e, d) := by
  unfold decodeTimeOnly timeOnlyLoop timeOnlyField
  have e : (onTime (decodeTime f INTERVAL_FULL_RANGE)) {} =
      (.err e, { tm := t.tm, fSec := t.fsec, tMask := t.tMask }) := by
    simp only [onTime, St.zoom, h]
  simp only [St.bind_run, noLook, e]
  exact ⟨_, rfl⟩

theorem time_fromPgtime (p : Profile) {tm : PgTime} {fs h m s : Int} (e1 : tm.hour = h)
    (e2 : tm.min = m) (e3 : tm.sec = s) (hh : 0 ≤ h ∧ h ≤ 24) (hm : 0 ≤ m ∧ m ≤ 59)
    (hs : 0 ≤ s ∧ s ≤ 60) (hf : 0 ≤ fs ∧ fs ≤ 1000000) :
    Time.fromPgtime p tm fs = .ok ⟨((h * 60 + m) * 60 + s) * 1000000 + fs⟩ := by
  subst e1 e2 e3
  unfold Time.fromPgtime
  rw [chk32_ok (by omega), Res.bind_ok, chk32_ok (by omega), Res.bind_ok, chk32_ok (by omega),
    Res.bind_ok, chk64_ok (by omega), Res.bind_ok, chk64_ok (by omega), Res.bind_ok,
    chk64_ok (by omega), Res.bind_ok]
  rfl

theorem fracMicros_nearest {f : Option Bytes} (h : Digits (fracDigits f))
    (hl : (fracDigits f).length ≤ 7) : NearestMicros (fracDigits f) (fracMicros f) := by
  obtain ⟨k, h1, h2, h3⟩ := roundMicros_frac h hl
  unfold fracMicros NearestMicros
  rw [h1]
  exact ⟨by exact_mod_cast h2, by exact_mod_cast h3⟩

theorem badTimeOnly_iff {d : Dec} {h m s f : Int} (e1 : d.tm.hour = h) (e2 : d.tm.min = m)
    (e3 : d.tm.sec = s) (e4 : d.fSec = f) : badTimeOnly d = true ↔
      h < 0 ∨ m < 0 ∨ 59 < m ∨ s < 0 ∨ 60 < s ∨ 24 < h ∨ (h = 24 ∧ (0 < m ∨ 0 < s ∨ 0 < f)) ∨ f < 0 ∨
        1000000 < f := by
  subst e1 e2 e3 e4
  simp only [badTimeOnly, Bool.or_eq_true, Bool.and_eq_true, decide_eq_true_eq]
  omega

instance (hh mm ss : Bytes) (f : Option Bytes) : Decidable (Readable hh mm ss f) := by
  unfold Readable; infer_instance

/-- Reading `hh:mm:ss[.f]` as a time of day. -/
theorem time_hms (p : Profile) (u : TokenField) {c : Caches} (hc : c.Ok) (order : DateOrder)
    {hh mm ss : Bytes} {f : Option Bytes} (h1 : Digits hh) (n1 : hh ≠ [])
    (h2 : Digits mm) (n2 : mm ≠ []) (h3 : Digits ss) (n3 : ss ≠ []) (hf : Digits (fracDigits f))
    (hl : (hmsBytes hh mm ss f).length ≤ 128) :
    if Readable hh mm ss f ∧ ClockInput (value hh) (value mm) (value ss) (fracMicros f) then
      Time.tryFromStr p u c (hmsBytes hh mm ss f) (-1) order =
        .ok ⟨clockValue (value hh) (value mm) (value ss) (fracMicros f)⟩
    else (Time.tryFromStr p u c (hmsBytes hh mm ss f) (-1) order).IsErr := by
  have hs := scan_time u h1 n1 (hms_timeB h2 h3 hf) hl
  change scan u (hmsBytes hh mm ss f) = .ok [(.time, hmsBytes hh mm ss f)] at hs
  by_cases hg : Readable hh mm ss f ∧ value hh ≤ 2147483647 ∧ value mm ≤ 59 ∧ value ss ≤ 60
  · obtain ⟨hr, g1, g2, g3⟩ := hg
    have hb := fracMicros_bounds hf hr.2.2.2
    have hd := decodeTime_ok h1 n1 h2 n2 h3 n3 hf hr g1 g2 g3 INTERVAL_FULL_RANGE ⟨0, {}, 0⟩
    have hrun := timeOnly_ok p order hd
    rw [time_run p u hc (-1) order hs hrun]
    by_cases hci : ClockInput (value hh) (value mm) (value ss) (fracMicros f)
    · rw [if_pos ⟨hr, hci⟩, if_neg]
      · have c1 := hci.1
        have hpg := time_fromPgtime p (fs := fracMicros f) (h := value hh) (m := value mm) (s := value ss)
          (tm := { sec := value ss, min := value mm, hour := value hh }) rfl rfl rfl
          (by omega) (by omega) (by omega) hb
        rw [Res.bind_ok]
        simp only [timeDec]
        rw [hpg]
        rfl
      · obtain ⟨c1, c2, c3, c4⟩ := hci
        rw [imp_iff_not_or] at c4
        rw [badTimeOnly_iff (h := value hh) (m := value mm) (s := value ss) (f := fracMicros f) rfl rfl rfl rfl]
        omega
    · rw [if_neg (fun h => hci h.2), if_pos]
      · exact ⟨_, rfl⟩
      · unfold ClockInput at hci
        rw [badTimeOnly_iff (h := value hh) (m := value mm) (s := value ss) (f := fracMicros f) rfl rfl rfl rfl]
        by_contra hcon
        apply hci
        rw [imp_iff_not_or]
        omega
  · rw [if_neg]
    · obtain ⟨e, t, hd⟩ := decodeTime_err h1 n1 h2 n2 h3 n3 hf hg INTERVAL_FULL_RANGE ⟨0, {}, 0⟩
      obtain ⟨⟨d, w⟩, hrun⟩ := timeOnly_err p order hd
      rw [time_run p u hc (-1) order hs hrun]
      exact ⟨_, rfl⟩
    · rintro ⟨hr, hci⟩
      apply hg
      obtain ⟨c1, c2, c3, c4⟩ := hci
      exact ⟨hr, by omega, c2, c3⟩

end Pg
