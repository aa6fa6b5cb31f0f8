import Verif.Lemmas.BadClock
import Verif.Props.Vocabulary

/-!
# Property C46: clock times out of range, in any text

A text with a clock time `hh:mm:ss[.f]` out of range, anywhere after words that do not end in a sign, is not accepted, whatever
else it contains. `c` is the state of the thread's keyword caches, `u` the uninitialised type of a lone sign.
-/

namespace Props
open Pg Spec

/-- **C46, any date or timestamp.** -/
theorem C46_anywhere_date (p : Profile) (u : TokenField) (c : Caches) (hc : c.Ok) (typmod : Int) (order : DateOrder) (s : Bytes)
    (h : HasWord BadClock s) :
    (∀ v, Date.tryFromStr p u c s order ≠ .ok v) ∧ ∀ v, Timestamp.tryFromStr p u c s typmod order ≠ .ok v := by
  have key : ∀ l, scan u s = .ok l → Post (decodeDateTime p plainLook order l) (fun _ _ => False) ({}, ()) := by
    intro l hl
    obtain ⟨l1, f, l2, rfl, h1, ⟨k⟩⟩ := scan_clock h hl
    exact decode_never (fun _ _ s => clock_refused h1 k s) l1 l2 ()
  refine ⟨fun v => ?_, fun v => ?_⟩
  · unfold Date.tryFromStr
    rw [(same_date p u order s c hc).1]
    exact never_ok_of (m := decodeDateTime p plainLook order) (f := fun d => St.lift (Date.ofDec p d)) key v
  · unfold Timestamp.tryFromStr
    rw [(same_timestamp p u typmod order s c hc).1]
    exact never_ok_of (m := decodeDateTime p plainLook order)
      (f := fun d => do let t ← St.lift (Timestamp.ofDec p d); St.lift (t.adjustByTypmod p typmod)) key v

/-- **C46, any time.** -/
theorem C46_anywhere_time (p : Profile) (u : TokenField) (c : Caches) (hc : c.Ok) (typmod : Int) (order : DateOrder) (s : Bytes)
    (h : HasWord BadClock s) (v : Time) : Time.tryFromStr p u c s typmod order ≠ .ok v := by
  unfold Time.tryFromStr
  rw [(same_time p u typmod order s c hc).1]
  refine never_ok_of (m := decodeTimeOnly p plainLook order)
    (f := fun d => do let t ← St.lift (Time.fromPgtime p d.tm d.fSec); St.lift (t.adjustByTypmod p typmod)) (fun l hl => ?_) v
  obtain ⟨l1, f, l2, rfl, h1, ⟨k⟩⟩ := scan_clock h hl
  exact decode_clockT h1 k l1 l2 ()

/-- **C46, any interval.** The hours of an interval are not limited to a day, its minutes and seconds are. A text that starts
with `P` may be an ISO 8601 interval. -/
theorem C46_anywhere_interval (p : Profile) (u : TokenField) (c : Caches) (hc : c.Ok) (typmod : Int) (style : IntervalStyle) (s : Bytes)
    (h : HasWord BadMinutes s) (hP : s.head? ≠ some 80) (v : Interval) : Interval.tryFromStr p u c s typmod style ≠ .ok v := by
  unfold Interval.tryFromStr
  rw [(same_interval p u typmod style s c hc).1]
  refine never_ok_of (m := fun l => St.orElse (decodeInterval p plainLook (parseRange typmod) style l) (noLook (decodeIsoInterval p s)))
    (f := fun d => St.lift (Interval.ofDec p d typmod)) (fun l hl => ?_) v
  obtain ⟨l1, f, l2, rfl, h1, ⟨k⟩⟩ := scan_clock h hl
  exact Post.orElse_never (decode_neverI (fun _ s => clock_refusedI h1 k s) style l1 l2 _) fun s => iso_never hP s

/-! ## Cases -/

/-- Half past midnight of the next day, with p.m. attached. -/
example : HasWord BadClock b!"Thu Jan 02 24:30:00pm 2024" :=
  ⟨[b!"Thu", b!"Jan", b!"02"], b!"24:30:00pm", [b!"2024"], by decide,
    ⟨b!"24", b!"30", b!"00", none, b!"pm", by decide, by unfold Digits; decide, by unfold Digits; decide, by unfold Digits; decide,
      by unfold Digits; decide, by unfold Digit; decide, fun us _ => by unfold ClockInput; simp [value]⟩,
    by unfold EndsInSign; decide⟩
/-- One microsecond after the end of the day. -/
example : HasWord BadClock b!"t 24:00:00.000001" :=
  ⟨[b!"t"], b!"24:00:00.000001", [], by decide,
    ⟨b!"24", b!"00", b!"00", some b!"000001", [], by decide, by unfold Digits; decide, by unfold Digits; decide, by unfold Digits; decide,
      by unfold Digits; decide, by unfold Digit; decide, fun us h => by
        unfold NearestMicros at h; unfold ClockInput; simp [value] at h ⊢; omega⟩,
    by unfold EndsInSign; decide⟩
example : Time.tryFromStr .debug .number Caches.new b!"t 24:00:00.000000" (-1) .mdy = .ok ⟨86400000000⟩ ∧
    (Time.tryFromStr .debug .number Caches.new b!"t 24:00:00.000001" (-1) .mdy).IsErr := by
  refine ⟨by decide +kernel, .overflow, by decide +kernel⟩
/-- Sixty minutes in an interval. -/
example : HasWord BadMinutes b!"3 days 50:60:00" :=
  ⟨[b!"3", b!"days"], b!"50:60:00", [], by decide,
    ⟨b!"50", b!"60", b!"00", none, [], by decide, by unfold Digits; decide, by unfold Digits; decide, by unfold Digits; decide,
      by unfold Digits; decide, by unfold Digit; decide, fun us _ => by simp [value]⟩,
    by unfold EndsInSign; decide⟩
example : Interval.tryFromStr .debug .number Caches.new b!"3 days 50:59:00" (-1) .postgres = .ok ⟨0, 3, 183540000000⟩ := by decide +kernel

end Props
