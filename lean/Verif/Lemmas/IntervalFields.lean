import Verif.Spec.Interval

namespace Pg
open Spec

/-- The fields of an interval whose hours fit `i32`. -/
def ivTm (a : Interval) : PgTime :=
  { PgTime.new with
    year := Int.tdiv a.month 12, mon := Int.tmod a.month 12, mday := a.day,
    hour := Int.tdiv a.time 3600000000,
    min := Int.tdiv (Int.tmod a.time 3600000000) 60000000,
    sec := Int.tdiv (Int.tmod a.time 60000000) 1000000 }

/-- `to_pgtime` on an interval. -/
theorem toPgtime_eq (p : Profile) {a : Interval} (h : In64 a.time) :
    a.toPgtime p = if In32 (Int.tdiv a.time 3600000000) then
      .ok (ivTm a, Int.tmod a.time 1000000) else .err .overflow := by
  unfold In64 at h
  have hiff : In32 (Int.tdiv a.time 3600000000) ↔ ¬ (Int.tdiv a.time 3600000000 < -2147483648 ∨
      Int.tdiv a.time 3600000000 > 2147483647) := by unfold In32; omega
  have q := tdiv_or a.time 3600000000
  have q' := tmod_or a.time 3600000000
  have r := tmod_or a.time 60000000
  have w := tmod_or a.time 1000000
  unfold Interval.toPgtime
  simp only
  rw [chk64_ok (by omega), Res.bind_ok, chk64_ok (by omega), Res.bind_ok]
  by_cases hc : In32 (Int.tdiv a.time 3600000000)
  · rw [if_pos hc, if_neg (hiff.1 hc)]
    unfold In32 at hc
    have e1 : a.time - Int.tdiv a.time 3600000000 * 3600000000 = Int.tmod a.time 3600000000 := by omega
    rw [e1]
    have s := tdiv_or (Int.tmod a.time 3600000000) 60000000
    rw [chk64_ok (by omega), Res.bind_ok, chk64_ok (by omega), Res.bind_ok]
    have e2 : Int.tmod a.time 3600000000 - Int.tdiv (Int.tmod a.time 3600000000) 60000000 * 60000000 =
      Int.tmod a.time 60000000 := by omega
    rw [e2]
    have s2 := tdiv_or (Int.tmod a.time 60000000) 1000000
    rw [chk64_ok (by omega), Res.bind_ok, chk64_ok (by omega), Res.bind_ok]
    have e3 : Int.tmod a.time 60000000 - Int.tdiv (Int.tmod a.time 60000000) 1000000 * 1000000 =
      Int.tmod a.time 1000000 := by omega
    rw [e3, wrap32_of_in (by omega), wrap32_of_in (by omega), wrap32_of_in (by omega)]
    rfl
  · rw [if_neg hc, if_pos (by
      apply Classical.byContradiction
      intro hn; exact hc (hiff.2 hn))]

/-- `from_pgtime` when its `i32` intermediate does not overflow. -/
theorem fromPgtime_eq (p : Profile) (tm : PgTime) (fs : Int) (hm : In32 (tm.year * 12 + tm.mon))
    (hh : In32 (tm.hour * 60)) (hmm : In32 (tm.hour * 60 + tm.min)) (hs : -60 ≤ tm.sec ∧ tm.sec ≤ 60)
    (hf : -1000000 ≤ fs ∧ fs ≤ 1000000) :
    Interval.fromPgtime p tm fs = .ok ⟨tm.year * 12 + tm.mon, tm.mday,
      ((tm.hour * 60 + tm.min) * 60 + tm.sec) * 1000000 + fs⟩ := by
  unfold In32 at *
  unfold Interval.fromPgtime
  simp only
  rw [if_neg (by omega), chk32_ok (by omega), Res.bind_ok, chk32_ok (by omega), Res.bind_ok,
    chk64_ok (by omega), Res.bind_ok, chk64_ok (by omega), Res.bind_ok, chk64_ok (by omega),
    Res.bind_ok, chk64_ok (by omega)]
  rfl

end Pg
