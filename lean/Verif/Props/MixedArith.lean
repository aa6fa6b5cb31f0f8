import Verif.Props.Timestamps
import Verif.Props.TimestampArith
import Verif.Props.Times

/-!
# C57: arithmetic between different types

`Date` with `Time` and `Interval`, `Timestamp` with `Time` and `Date`, `Time` with `Time`.
-/

namespace Props
open Pg Spec

theorem ofDate_cases (p : Profile) (d : Date) (h : DateRange d.v) :
    (d.v < 106751983 ∧ Timestamp.ofDate p d = .ok ⟨d.v * dayMicros⟩ ∧ TsRange (d.v * dayMicros)) ∨
    (106751983 ≤ d.v ∧ (Timestamp.ofDate p d).IsErr) := by
  have := C06_date_to_timestamp p d h
  rw [show dayNumber ⟨294277, 1, 1⟩ = 106751983 from by decide] at this
  by_cases hc : d.v < 106751983
  · exact .inl ⟨hc, (this.1 hc).1, (this.1 hc).2.1⟩
  · exact .inr ⟨by omega, this.2 hc⟩

/-- **C57.** A date plus a time of day (up to 24:00) is that time of that day; an error exactly when this
instant is outside the timestamp range. -/
theorem C57_date_time (p : Profile) (d : Date) (t : Time) (h : DateRange d.v) (h0 : 0 ≤ t.v) (h1 : t.v ≤ dayMicros) :
    (TsRange (d.v * dayMicros + t.v) → d.addTime p t = .ok ⟨d.v * dayMicros + t.v⟩) ∧
    (¬ TsRange (d.v * dayMicros + t.v) → (d.addTime p t).IsErr) := by
  unfold Date.addTime
  have h' := (dateRange_iff _).1 h
  rcases ofDate_cases p d h with ⟨hc, e, hr⟩ | ⟨hc, k, e⟩
  · rw [e, Res.bind_ok, notInf (t := ⟨d.v * dayMicros⟩) hr]
    have hi : In64 (d.v * dayMicros + t.v) := by unfold In64; unfold dayMicros at h1 ⊢; omega
    have := C12_time_step_partial p ⟨d.v * dayMicros⟩ t.v hr hi
    simp only [Bool.false_eq_true, not_false_eq_true, if_true, Timestamp.addTime, Interval.ofTime]
    constructor
    · intro hx
      rw [this.1 hx, Res.bind_ok]
      simp only [(isValidTimestamp_iff _).2 hx, if_true]
    · intro hx
      obtain ⟨e', he⟩ := this.2 hx
      rw [he]; exact ⟨_, rfl⟩
  · rw [e]
    refine ⟨fun hx => ?_, fun _ => ⟨_, rfl⟩⟩
    rw [tsRange_iff] at hx
    unfold dayMicros at hx
    omega

/-- **C57.** Infinite dates absorb times and intervals. -/
theorem C57_date_infinite (p : Profile) (t : Time) (a : Interval)
    (hn : In32 (-a.month) ∧ In32 (-a.day) ∧ In64 (-a.time)) :
    Date.BEGIN.addTime p t = .ok Timestamp.BEGIN ∧ Date.END.addTime p t = .ok Timestamp.END ∧
    Date.BEGIN.addInterval p a = .ok Timestamp.BEGIN ∧ Date.END.addInterval p a = .ok Timestamp.END ∧
    Date.BEGIN.subInterval p a = .ok Timestamp.BEGIN ∧ Date.END.subInterval p a = .ok Timestamp.END := by
  refine ⟨rfl, rfl, rfl, rfl, ?_, ?_⟩
  · change Timestamp.BEGIN.subInterval p a = _
    rw [C13_sub_is_add_neg, if_pos hn]; rfl
  · change Timestamp.END.subInterval p a = _
    rw [C13_sub_is_add_neg, if_pos hn]; rfl

/-- **C57.** Adding a time of day to a timestamp, or subtracting one, is exact, an error exactly when the
result is out of range; subtraction undoes addition. -/
theorem C57_timestamp_time (p : Profile) (s : Timestamp) (t : Time) (h : TsRange s.v) (h0 : 0 ≤ t.v)
    (h1 : t.v ≤ dayMicros) :
    (TsRange (s.v + t.v) → s.addTime p t = .ok ⟨s.v + t.v⟩ ∧ (⟨s.v + t.v⟩ : Timestamp).subTime p t = .ok s) ∧
    (¬ TsRange (s.v + t.v) → (s.addTime p t).IsErr) ∧
    (TsRange (s.v - t.v) → s.subTime p t = .ok ⟨s.v - t.v⟩) ∧
    (¬ TsRange (s.v - t.v) → (s.subTime p t).IsErr) := by
  have h' := (tsRange_iff _).1 h
  unfold dayMicros at h1
  have a1 := C12_time_step_partial p s t.v h (by unfold In64; omega)
  have sb : ∀ s : Timestamp, s.subTime p t = s.addInterval p ⟨0, 0, -t.v⟩ := by
    intro s
    unfold Timestamp.subTime Interval.ofTime
    rw [C13_sub_is_add_neg, if_pos (by unfold In32 In64; simp only; omega)]
    rfl
  have a2 := C12_time_step_partial p s (-t.v) h (by unfold In64; omega)
  refine ⟨fun hx => ⟨a1.1 hx, ?_⟩, a1.2, fun hx => ?_, fun hx => ?_⟩
  · rw [sb, (C12_time_step_partial p ⟨s.v + t.v⟩ (-t.v) hx (by unfold In64; simp only; omega)).1
      (by simp only; rw [show s.v + t.v + -t.v = s.v by omega]; exact h)]
    simp only
    rw [show s.v + t.v + -t.v = s.v by omega]
  · rw [sb, a2.1 (by rw [← Int.sub_eq_add_neg]; exact hx), Int.sub_eq_add_neg]
  · rw [sb]; exact a2.2 (by rw [← Int.sub_eq_add_neg]; exact hx)

/-- **C57.** Date plus interval and date minus interval are the same operations on the midnight that starts the
day. -/
theorem C57_date_interval (p : Profile) (d : Date) (a : Interval) (h : DateRange d.v) :
    (d.v < dayNumber ⟨294277, 1, 1⟩ →
      d.addInterval p a = (⟨d.v * dayMicros⟩ : Timestamp).addInterval p a ∧
      d.subInterval p a = (⟨d.v * dayMicros⟩ : Timestamp).subInterval p a) ∧
    (¬ d.v < dayNumber ⟨294277, 1, 1⟩ → (d.addInterval p a).IsErr ∧ (d.subInterval p a).IsErr) := by
  rw [show dayNumber ⟨294277, 1, 1⟩ = 106751983 from by decide]
  rcases ofDate_cases p d h with ⟨hc, e, hr⟩ | ⟨hc, k, e⟩
  · refine ⟨fun _ => ?_, fun hx => absurd hc hx⟩
    unfold Date.addInterval Date.subInterval
    rw [e]; exact ⟨rfl, rfl⟩
  · refine ⟨fun hx => by omega, fun _ => ?_⟩
    unfold Date.addInterval Date.subInterval
    rw [e]; exact ⟨⟨_, rfl⟩, ⟨_, rfl⟩⟩

/-- **C57.** A timestamp minus a date is the exact time since that day's midnight, in days and time of the same
sign below 24 hours; adding it to the date gives the timestamp back. Missing: differences of more than 64
bits, on which `sub_timestamp` overflows (`C14_violated`). -/
theorem C57_timestamp_date_partial (p : Profile) (s : Timestamp) (d : Date) (h : TsRange s.v) (hd : DateRange d.v)
    (hlt : d.v < dayNumber ⟨294277, 1, 1⟩) (h64 : In64 (s.v - d.v * dayMicros)) :
    ∃ r, s.subDate p d = .ok r ∧ r.month = 0 ∧ r.day * dayMicros + r.time = s.v - d.v * dayMicros ∧
      -dayMicros < r.time ∧ r.time < dayMicros ∧ SameSign r.day r.time ∧ d.addInterval p r = .ok s := by
  have hi := (C57_date_interval p d · hd |>.1 hlt |>.1)
  rw [show dayNumber ⟨294277, 1, 1⟩ = 106751983 from by decide] at hlt
  rcases ofDate_cases p d hd with ⟨hc, e, hr⟩ | ⟨hc, k, e⟩
  · obtain ⟨r, e1, e2, e3, e4, e5, e6, e7⟩ := C14_partial p s ⟨d.v * dayMicros⟩ h hr h64
    refine ⟨r, ?_, e2, e3, e4, e5, e6, ?_⟩
    · unfold Timestamp.subDate; rw [e]; exact e1
    · rw [hi]; exact e7
  · omega

/-- **C57.** The difference of two times of day is exact, and adding it to the second gives the first. -/
theorem C57_time_time (p : Profile) (s t : Time) (hs : 0 ≤ s.v ∧ s.v ≤ dayMicros) (ht : 0 ≤ t.v ∧ t.v ≤ dayMicros) :
    s.subTime t = ⟨0, 0, s.v - t.v⟩ ∧ (s.v < dayMicros → t.addInterval p (s.subTime t) = .ok s) := by
  unfold dayMicros at hs ht ⊢
  have e : s.subTime t = ⟨0, 0, s.v - t.v⟩ := by
    unfold Time.subTime
    rw [wrap64_of_in (by omega)]
  refine ⟨e, fun hl => ?_⟩
  rw [e]
  unfold Time.addInterval
  simp only
  rw [wrap64_of_in (by omega), show t.v + (s.v - t.v) = s.v by omega]
  have := tdiv_or s.v 86400000000
  rw [chk64_ok (by omega), Res.bind_ok]
  unfold Time.wrapNegative
  rw [chk64_ok (by omega), Res.bind_ok, if_neg (by omega)]
  congr 2
  omega

example : DateRange 8825 ∧ (⟨8825⟩ : Date).addTime .debug ⟨43200000000⟩ = .ok ⟨762523200000000⟩ ∧
    (⟨106751982⟩ : Date).addTime .debug ⟨86400000000⟩ = .err .invalid ∧
    (⟨762523200000000⟩ : Timestamp).subDate .debug ⟨8826⟩ = .ok ⟨0, 0, -43200000000⟩ ∧
    (⟨8825⟩ : Date).addInterval .debug ⟨1, 0, 0⟩ = .ok ⟨764985600000000⟩ ∧
    (⟨1⟩ : Time).subTime ⟨2⟩ = ⟨0, 0, -1⟩ := by decide +kernel

end Props
