import Verif.Lemmas.DayClock
import Verif.Props.ClockValue
import Verif.Spec.DayClock

/-!
# Property C111: the text of a date and a clock time behind it

`c` is the state of the thread's keyword caches, `u` the uninitialised type of a lone sign. The date may be written in any way.
-/

namespace Pg
open Spec

theorem thenClock_has {hh mm ss : Bytes} {f : Option Bytes} {s t : Bytes} (h : ThenClock hh mm ss f s t) : HasClock hh mm ss f [] t := by
  obtain ⟨h1, h2, -, h4, rfl⟩ := h
  refine ⟨h1, h2, (fun b hb => by cases hb), s ++ [32], [], by simp, .nothing, Or.inr ⟨s, 32, rfl, rfl⟩, ?_⟩
  rw [words_blank]
  exact h4

/-- The fields of the two texts, and their dates. -/
theorem thenClock_date {p : Profile} {u : TokenField} {c : Caches} (hc : c.Ok) {order : DateOrder} {hh mm ss : Bytes} {f : Option Bytes} {s t : Bytes}
    (h : ThenClock hh mm ss f s t) {v : Date} (hs : Date.tryFromStr p u c s order = .ok v) {l : List Field} {e : Dec} (h1 : scan u t = .ok l)
    (h2 : decodeDateTime p plainLook order l ({}, ()) = (.ok (), (e, ()))) : Date.tryFromStr p u c t order = .ok v := by
  obtain ⟨l1, l2, k, -⟩ := hasClock_scan (thenClock_has h) h1
  have hlen := scan_cap h1 (.time, hmsBytes hh mm ss f) (by rw [k]; simp)
  obtain ⟨⟨g1, g2, g3⟩, hf, ⟨b, b1, b2, b3⟩, -, rfl⟩ := h
  have ef : f.getD [] = fracDigits f := by cases f <;> rfl
  rw [ef] at hf
  have h1' := h1
  rw [hmsText_bytes] at h1'
  obtain ⟨l1, k1, rfl⟩ := scan_endClock g1 g2 g3 hf b1 b2 b3 hlen h1'
  obtain ⟨l', d, q1, q2, q3⟩ := date_decoded hc hs
  rw [k1] at q1
  cases q1
  rw [date_run p u hc order h1 h2, Res.bind_ok, decode_dayClock g1 g2 g3 hf q2 h2]
  exact q3

end Pg

namespace Props
open Pg Spec

/-- **C111, timestamps.** The value is the day of the text, at the time of the clock. -/
theorem C111_timestamp (p : Profile) (u : TokenField) (c : Caches) (hc : c.Ok) (order : DateOrder) (hh mm ss : Bytes) (f : Option Bytes)
    (s t : Bytes) (h : ThenClock hh mm ss f s t) (d : Date) (hs : Date.tryFromStr p u c s order = .ok d)
    (v : Timestamp) (hv : Timestamp.tryFromStr p u c t (-1) order = .ok v) :
    (d.v = 2147483647 ∧ v.v = 9223372036854775807) ∨ (d.v = -2147483648 ∧ v.v = -9223372036854775808) ∨
    ∃ (H : Nat) (us : Int), HourSaid [] t (value hh) H ∧ NearestMicros (f.getD []) us ∧
      ClockInput (value hh) (value mm) (value ss) us ∧ v.v = d.v * 86400000000 + clockValue H (value mm) (value ss) us := by
  obtain ⟨l, e, x, h1, h2, h3, h4⟩ := timestamp_decoded hc hv
  have kind := timestamp_kind h3 h4
  have ht := thenClock_date hc h hs h1 h2
  rcases kind with ⟨-, q1, q2⟩ | ⟨q1, q2⟩ | ⟨q1, q2⟩
  · right; right
    rcases C107_timestamp_partial p u c hc order hh mm ss [] t f (thenClock_has h) (by simp) v hv with k | ⟨n, H, us, k1, k2, k3, k4, k5⟩
    · omega
    · refine ⟨H, us, k1, k2, k3, ?_⟩
      split at k5
      · rw [ht] at k5
        cases k5
        exact k4
      · obtain ⟨e, k5⟩ := k5
        rw [ht] at k5
        cases k5
  · left
    rw [date_run p u hc order h1 h2, Res.bind_ok] at ht
    unfold Date.ofDec at ht
    rw [q1] at ht
    cases ht
    exact ⟨rfl, q2⟩
  · right; left
    rw [date_run p u hc order h1 h2, Res.bind_ok] at ht
    unfold Date.ofDec at ht
    rw [q1] at ht
    cases ht
    exact ⟨rfl, q2⟩

/-- **C111, dates.** The clock time does not change the day. -/
theorem C111_date (p : Profile) (u : TokenField) (c : Caches) (hc : c.Ok) (order : DateOrder) (hh mm ss : Bytes) (f : Option Bytes)
    (s t : Bytes) (h : ThenClock hh mm ss f s t) (d : Date) (hs : Date.tryFromStr p u c s order = .ok d)
    (v : Date) (hv : Date.tryFromStr p u c t order = .ok v) : v = d := by
  obtain ⟨l, e, h1, h2, -⟩ := date_decoded hc hv
  have := thenClock_date hc h hs h1 h2
  rw [hv] at this
  cases this
  rfl

/-! ## Cases -/

theorem thenClock_case {hh mm ss : Bytes} {f : Option Bytes} {s : Bytes} (h1 : ThreeNumbers hh mm ss) (h2 : Digits (f.getD [])) (h3 : EndsPlainly s)
    (h4 : ∀ w ∈ words s, ¬ EndsInSign w) : ThenClock hh mm ss f s (s ++ 32 :: hmsText hh mm ss f) := ⟨h1, h2, h3, h4, rfl⟩

/-- The month by its name, the half of the day before the clock time. -/
example (p : Profile) :
    ThenClock b!"11" b!"30" b!"59" (some b!"5") b!"2 Jan 2024 pm" b!"2 Jan 2024 pm 11:30:59.5" ∧
    Date.tryFromStr p .number Caches.new b!"2 Jan 2024 pm" .mdy = .ok ⟨8767⟩ ∧
    Date.tryFromStr p .number Caches.new b!"2 Jan 2024 pm 11:30:59.5" .mdy = .ok ⟨8767⟩ ∧
    Timestamp.tryFromStr p .number Caches.new b!"2 Jan 2024 pm 11:30:59.5" (-1) .mdy = .ok ⟨8767 * 86400000000 + clockValue 23 30 59 500000⟩ := by
  refine ⟨thenClock_case (by unfold ThreeNumbers Digits; decide) (by unfold Digits; decide) ⟨109, by decide, by decide⟩ (by unfold EndsInSign; decide), ?_⟩
  cases p <;> decide +kernel
/-- The day of the year, and the last moment of the day. -/
example (p : Profile) :
    ThenClock b!"24" b!"00" b!"00" none b!"2024.060" b!"2024.060 24:00:00" ∧
    Date.tryFromStr p .number Caches.new b!"2024.060" .mdy = .ok ⟨8825⟩ ∧
    Timestamp.tryFromStr p .number Caches.new b!"2024.060 24:00:00" (-1) .mdy = .ok ⟨8826 * 86400000000⟩ ∧
    (8826 * 86400000000 : Int) = 8825 * 86400000000 + clockValue 24 0 0 0 := by
  refine ⟨thenClock_case (by unfold ThreeNumbers Digits; decide) (by unfold Digits; decide) ⟨48, by decide, by decide⟩ (by unfold EndsInSign; decide), ?_⟩
  cases p <;> decide +kernel
/-- An infinite date. -/
example (p : Profile) :
    ThenClock b!"1" b!"2" b!"3" none b!"infinity" b!"infinity 1:2:3" ∧
    Date.tryFromStr p .number Caches.new b!"infinity" .mdy = .ok ⟨2147483647⟩ ∧
    Timestamp.tryFromStr p .number Caches.new b!"infinity 1:2:3" (-1) .mdy = .ok ⟨9223372036854775807⟩ := by
  refine ⟨thenClock_case (by unfold ThreeNumbers Digits; decide) (by unfold Digits; decide) ⟨121, by decide, by decide⟩ (by unfold EndsInSign; decide), ?_⟩
  cases p <;> decide +kernel

end Props
