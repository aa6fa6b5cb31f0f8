import Verif.Props.Construct
import Verif.Props.TruncateTypes

/-!
# Property C48: the fields of an interval
-/

namespace Props
open Pg Spec

/-- The hours of the time part fit 32 bits: fewer than `2^31` hours, or `-2^31`. -/
def HoursFit (t : Int) : Prop := -2147483649 * 3600000000 < t ∧ t < 2147483648 * 3600000000

instance (t : Int) : Decidable (HoursFit t) := inferInstanceAs (Decidable (_ ∧ _))

theorem hoursFit_iff (t : Int) : HoursFit t ↔ In32 (Int.tdiv t 3600000000) := by
  have := tdiv_or t 3600000000
  unfold HoursFit In32; omega

/-- **C48 (decomposition).** The year, month, day, hour, minute and microsecond fields (the last
including seconds) add up to the interval, have the sign of the part they come from and are below
one unit of the next field. The second field is the same as the microsecond field up to a quarter
microsecond, and the public constructor applied to year, month, day, hour, minute and second gives
the interval back exactly. -/
theorem C48_fields (p : Profile) (a : Interval) (h : a.WF) (hf : HoursFit a.time) :
    ∃ (y mo hr mi us : Int) (s : Rat),
      a.datePart p .unit .year = .ok (.fin y) ∧ a.datePart p .unit .month = .ok (.fin mo) ∧
      a.datePart p .unit .day = .ok (.fin a.day) ∧ a.datePart p .unit .hour = .ok (.fin hr) ∧
      a.datePart p .unit .minute = .ok (.fin mi) ∧ a.datePart p .unit .microsec = .ok (.fin us) ∧
      a.datePart p .unit .second = .ok (.fin s) ∧
      y * 12 + mo = a.month ∧ hr * 3600000000 + mi * 60000000 + us = a.time ∧
      SameSign y a.month ∧ SameSign mo a.month ∧ SameSign hr a.time ∧ SameSign mi a.time ∧
      SameSign us a.time ∧ -12 < mo ∧ mo < 12 ∧ -60 < mi ∧ mi < 60 ∧
      -60000000 < us ∧ us < 60000000 ∧ |s - us / 1000000| ≤ 1 / 4000000 ∧
      Interval.tryFromYmwdHms y mo 0 a.day hr mi (.fin s) = .ok a := by
  obtain ⟨hm, hd, ht⟩ := h
  have hf' := (hoursFit_iff _).1 hf
  have m1 := tdiv_or a.month 12
  have m2 := tmod_or a.month 12
  obtain ⟨c1, c2, c3, -, c5, c6, -⟩ := time_chain a.time
  have t1 := tdiv_or a.time 3600000000
  have t2 := tmod_or a.time 3600000000
  have t3 := tdiv_or (Int.tmod a.time 3600000000) 60000000
  have t4 : Int.tdiv (Int.tmod a.time 60000000) 1000000 * 1000000 + Int.tmod a.time 1000000 =
      Int.tmod a.time 60000000 := by
    have := tdiv_or a.time 60000000
    have := tmod_or a.time 60000000
    omega
  have t5 := tmod_or a.time 60000000
  have hpart : ∀ u, a.datePart p .unit u = Interval.fieldPart p (ivTm a) (Int.tmod a.time 1000000) u := by
    intro u
    unfold Interval.datePart
    simp only
    rw [toPgtime_eq p ht, if_pos hf']
    rfl
  unfold In32 at hm hd hf'
  unfold In64 at ht
  obtain ⟨s, e, hs⟩ := F64.partSecond_near c5 c6
  have hsum : Int.tdiv a.time 3600000000 * 3600000000 +
      Int.tdiv (Int.tmod a.time 3600000000) 60000000 * 60000000 + Int.tmod a.time 60000000 = a.time := by
    omega
  refine ⟨Int.tdiv a.month 12, Int.tmod a.month 12, Int.tdiv a.time 3600000000,
    Int.tdiv (Int.tmod a.time 3600000000) 60000000, Int.tmod a.time 60000000, s,
    ?_, ?_, ?_, ?_, ?_, ?_, ?_, by omega, hsum, ?_, ?_, ?_, ?_, ?_, by omega, by omega, ?_, ?_,
    by omega, by omega, ?_, ?_⟩
  · rw [hpart]; exact congrArg Res.ok (F64.ofInt_ok (n := Int.tdiv a.month 12) (by omega))
  · rw [hpart]; exact congrArg Res.ok (F64.ofInt_ok (n := Int.tmod a.month 12) (by omega))
  · rw [hpart]; exact congrArg Res.ok (F64.ofInt_ok (n := a.day) (by omega))
  · rw [hpart]; exact congrArg Res.ok (F64.ofInt_ok (n := Int.tdiv a.time 3600000000) (by omega))
  · rw [hpart]; exact congrArg Res.ok (F64.ofInt_ok (n := Int.tdiv (Int.tmod a.time 3600000000) 60000000) (by omega))
  · rw [hpart, ← t4]; exact congrArg Res.ok (F64.partMicros_eq c5 c6)
  · rw [hpart]; exact congrArg Res.ok e
  · unfold SameSign; omega
  · unfold SameSign; omega
  · unfold SameSign; omega
  · unfold SameSign; omega
  · unfold SameSign; omega
  · omega
  · omega
  · rw [t4] at hs; exact hs
  · have hk : secMicros (.fin s) = Int.tmod a.time 60000000 := by
      rw [t4] at hs
      exact F64.secMicros_near (by omega) hs
    have e2 : Interval.tryFromYmwdHms (Int.tdiv a.month 12) (Int.tmod a.month 12) 0 a.day
        (Int.tdiv a.time 3600000000) (Int.tdiv (Int.tmod a.time 3600000000) 60000000) (.fin s) =
        .ok ⟨wrap32 (wrap32 (Int.tdiv a.month 12 * 12) + Int.tmod a.month 12), wrap32 (wrap32 (0 * 7) + a.day),
        wrap64 (wrap64 (wrap64 (Int.tdiv a.time 3600000000 * 3600000000) +
          wrap64 (Int.tdiv (Int.tmod a.time 3600000000) 60000000 * 60000000)) + secMicros (.fin s))⟩ := rfl
    rw [e2, hk, wrap32_of_in (x := Int.tdiv a.month 12 * 12) (by omega),
      wrap32_of_in (x := 0 * 7) (by omega),
      wrap32_of_in (by omega), wrap32_of_in (by omega)]
    rw [wrap64_of_in (x := Int.tdiv a.time 3600000000 * 3600000000) (by omega),
      wrap64_of_in (x := Int.tdiv (Int.tmod a.time 3600000000) 60000000 * 60000000) (by omega)]
    clear hs e hpart m1 m2 c1 c2 c3 c5 c6 t4
    rw [show wrap64 (Int.tdiv a.time 3600000000 * 3600000000 +
      Int.tdiv (Int.tmod a.time 3600000000) 60000000 * 60000000) = Int.tdiv a.time 3600000000 * 3600000000 +
      Int.tdiv (Int.tmod a.time 3600000000) 60000000 * 60000000 from wrap64_of_in (by omega)]
    rw [hsum, wrap64_of_in ht]
    have : Int.tdiv a.month 12 * 12 + Int.tmod a.month 12 = a.month := (months_chain a.month).1
    rw [this, show (0 * 7 + a.day : Int) = a.day by omega]

/-- **C48 (hours outside 32 bits).** Every field and every truncation is an Overflow error. -/
theorem C48_overflow (p : Profile) (a : Interval) (h : a.WF) (hf : ¬ HoursFit a.time) (u : DateUnit) :
    a.datePart p .unit u = .err .overflow ∧ a.truncate p .unit u = .err .overflow := by
  have e := toPgtime_eq p h.2.2
  rw [if_neg (fun hc => hf ((hoursFit_iff _).2 hc))] at e
  unfold Interval.datePart Interval.truncate
  simp only
  rw [e]
  exact ⟨rfl, rfl⟩

example : (⟨-30, 5, -3723000001⟩ : Interval).WF ∧ HoursFit (-3723000001) ∧
    (⟨-30, 5, -3723000001⟩ : Interval).datePart .debug .unit .year = .ok (.fin (-2)) ∧
    (⟨-30, 5, -3723000001⟩ : Interval).datePart .debug .unit .month = .ok (.fin (-6)) ∧
    (⟨-30, 5, -3723000001⟩ : Interval).datePart .debug .unit .microsec = .ok (.fin (-3000001)) ∧
    ¬ HoursFit 9223372036854775807 := by decide +kernel

end Props
