import Verif.Lemmas.Date

/-! # `julian2date` outside the range of its documentation, and `to_timestamp` on any real day -/

namespace Pg
open Spec

/-- `julian2date` reads its argument as `u32`; it is exact up to `4294846999`. -/
theorem julian2date_wide (p : Profile) (jd u : Int) (hu : wrapU32 jd = u) (h0 : 0 ≤ u)
    (h1 : u ≤ 4294846999) : julian2date p jd = .ok (j2dCore u) := by
  unfold julian2date j2dCore
  rw [hu]
  simp (disch := omega) only [wrap32_of_in, chkU32_ok, chk32_ok, Res.bind_ok, Res.pure_eq]
  simp only [sub_div_mul]
  split <;> rfl

/-- In release builds a slightly negative Julian day wraps back to the right value. -/
theorem julian2date_neg (jd : Int) (h0 : -32044 ≤ jd) (h1 : jd < 0) :
    julian2date .release jd = .ok (j2dCore jd) := by
  have hu : chkU32 .release (wrapU32 jd + 32044) = .ok (jd + 32044) := by
    unfold chkU32 wrapU32
    rw [if_neg (by unfold InU32; omega)]
    simp only [Res.ok.injEq]; omega
  unfold julian2date j2dCore
  rw [hu]
  simp (disch := omega) only [wrap32_of_in, chkU32_ok, chk32_ok, Res.bind_ok, Res.pure_eq]
  simp only [sub_div_mul]
  split <;> rfl

/-- `to_timestamp` on a real day and a real clock reading: the instant if supported, else an error. -/
theorem toTimestamp_real (p : Profile) (tm : PgTime) (us : Int)
    (hc : (⟨tm.year, tm.mon, tm.mday⟩ : YMD).Real)
    (ht : (⟨tm.hour, tm.min, tm.sec, us⟩ : Clock).Real) :
    (TsRange (instant ⟨tm.year, tm.mon, tm.mday⟩ ⟨tm.hour, tm.min, tm.sec, us⟩) →
      tm.toTimestamp p us = .ok (instant ⟨tm.year, tm.mon, tm.mday⟩ ⟨tm.hour, tm.min, tm.sec, us⟩)) ∧
    (¬ TsRange (instant ⟨tm.year, tm.mon, tm.mday⟩ ⟨tm.hour, tm.min, tm.sec, us⟩) →
      (tm.toTimestamp p us).IsErr) := by
  have hb := real_bounds hc
  simp only at hb
  have ht' := ht
  unfold Clock.Real at ht'
  simp only at ht'
  by_cases hv : isValidJulian tm.year tm.mon = true
  · exact toTimestamp_eq p tm us ⟨hb.1, hb.2.1⟩ hb.2.2 hv (by omega) (by omega) (by omega) (by omega)
  · have hn := not_tsRange_of_not_julian hc (t := ⟨tm.hour, tm.min, tm.sec, us⟩)
      (by unfold Clock.micros; simp only; omega) hv
    refine ⟨fun h => absurd h hn, fun _ => ?_⟩
    unfold PgTime.toTimestamp
    rw [if_pos (by simpa using hv)]
    exact ⟨_, rfl⟩

end Pg
