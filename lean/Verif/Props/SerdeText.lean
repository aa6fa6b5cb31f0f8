import Verif.Props.Serde
import Verif.Props.ClockInput
import Verif.Props.DateInput
import Verif.Props.StampInput
import Verif.Props.Infinity
import Verif.Props.IntervalInput

/-!
# Property C39: serialisation to text
-/

namespace Props
open Pg Spec

/-- **C39 (dates).** In a text format every valid date, finite or infinite, is read back. -/
theorem C39_date (p p' : Profile) (u : TokenField) (cs : Caches) (hcs : cs.Ok) (junk : Bytes)
    (hj : junk.length = 128) (d : Date) (hd : DateRange d.v ∨ d.v = i32Max ∨ d.v = i32Min) :
    ∃ s, d.serText p junk = .ok s ∧ ∀ v, Carries s v → Date.visit p' u cs v = .ok d := by
  have key : ∃ text, d.format p junk .iso .ymd = .ok text ∧ Date.tryFromStr p' u cs text .ymd = .ok d := by
    rcases hd with hd | hd | hd
    · exact C34_partial p p' u cs hcs junk hj d hd .iso .ymd (Or.inl rfl)
    · obtain ⟨v⟩ := d
      simp only at hd; subst hd
      exact ⟨_, (C40_output p junk .iso .ymd).1, (C40_input p' u cs hcs .ymd (-1) b!"infinity" (by decide)).1⟩
    · obtain ⟨v⟩ := d
      simp only at hd; subst hd
      exact ⟨_, (C40_output p junk .iso .ymd).2.1, (C40_input p' u cs hcs .ymd (-1) b!"infinity" (by decide)).2.1⟩
  obtain ⟨text, h1, h2⟩ := key
  refine ⟨.str text, by rw [Date.serText, h1]; rfl, ?_⟩
  intro v hv
  cases hv
  rw [Date.visit, h2]; rfl

/-- **C39 (times).** In a text format every time of day is read back. -/
theorem C39_time (p p' : Profile) (u : TokenField) (cs : Caches) (hcs : cs.Ok) (junk : Bytes)
    (hj : junk.length = 128) (t : Time) (ht : 0 ≤ t.v ∧ t.v ≤ 86400000000) :
    ∃ s, t.serText p junk = .ok s ∧ ∀ v, Carries s v → Time.visit p' u cs v = .ok t := by
  obtain ⟨text, h1, h2⟩ := C35 p p' u cs hcs junk hj t ht .iso .ymd
  refine ⟨.str text, by rw [Time.serText, h1]; rfl, ?_⟩
  intro v hv
  cases hv
  rw [Time.visit, h2]; rfl

/-- **C39 (timestamps).** In a text format every valid timestamp, finite or infinite, is read back. -/
theorem C39_timestamp (p p' : Profile) (u : TokenField) (cs : Caches) (hcs : cs.Ok) (junk : Bytes)
    (hj : junk.length = 128) (t : Timestamp) (ht : TsRange t.v ∨ t.v = i64Max ∨ t.v = i64Min) :
    ∃ s, t.serText p junk = .ok s ∧ ∀ v, Carries s v → Timestamp.visit p' u cs v = .ok t := by
  have key : ∃ text, t.format p junk .iso .ymd = .ok text ∧ Timestamp.tryFromStr p' u cs text (-1) .ymd = .ok t := by
    rcases ht with ht | ht | ht
    · obtain ⟨c, k, hc, hk, rfl⟩ := C36_every t ht
      exact C36_partial p p' u cs hcs junk hj c k hc hk ht .iso .ymd (Or.inl rfl)
    · obtain ⟨v⟩ := t
      simp only at ht; subst ht
      exact ⟨_, (C40_output p junk .iso .ymd).2.2.1, (C40_input p' u cs hcs .ymd (-1) b!"infinity" (by decide)).2.2.1⟩
    · obtain ⟨v⟩ := t
      simp only at ht; subst ht
      exact ⟨_, (C40_output p junk .iso .ymd).2.2.2, (C40_input p' u cs hcs .ymd (-1) b!"infinity" (by decide)).2.2.2⟩
  obtain ⟨text, h1, h2⟩ := key
  refine ⟨.str text, by rw [Timestamp.serText, h1]; rfl, ?_⟩
  intro v hv
  cases hv
  rw [Timestamp.visit, h2]; rfl

/-- **C39 (intervals, partial).** In a text format every interval below 2^31 minutes of time and above
`-2^31` days is read back. Missing: the other intervals, for which it is false (see below). -/
theorem C39_interval_partial (p p' : Profile) (u : TokenField) (cs : Caches) (hcs : cs.Ok) (junk : Bytes)
    (hj : junk.length = 128) (a : Interval) (h : a.WF) (hd : a.day ≠ -2147483648)
    (ht : -128849018880000000 < a.time ∧ a.time < 128849018880000000) :
    ∃ s, a.serText p junk = .ok s ∧ ∀ v, Carries s v → Interval.visit p' u cs v = .ok a := by
  obtain ⟨text, h1, h2⟩ := C37_partial p p' u cs hcs junk hj a h hd ht .sqlStandard (fun h => by cases h)
  refine ⟨.str text, by rw [Interval.serText, h1]; rfl, ?_⟩
  intro v hv
  cases hv
  rw [Interval.visit, h2]; rfl

example : Caches.new.Ok ∧ (List.replicate 128 0).length = 128 ∧ DateRange 8948 ∧ TsRange 773137705000000 ∧
    (⟨-14, 3, -3723123456⟩ : Interval).WF ∧
    Interval.visit .debug .string Caches.new (.str b!"-1-2 +3 -1:02:03.123456") = .ok ⟨-14, 3, -3723123456⟩ := by
  refine ⟨Caches.ok_new, rfl, by decide, by decide, by decide, ?_⟩
  decide +kernel

/-- **C39 is violated:** the text of the interval of 2^31 minutes makes reading panic in a debug build and is
read with the opposite sign in a release build. -/
theorem C39_interval_violated (p : Profile) (u : TokenField) (cs : Caches) (hcs : cs.Ok) (junk : Bytes)
    (hj : junk.length = 128) :
    (⟨0, 0, 128849018880000000⟩ : Interval).format p junk .sqlStandard = .ok b!"35791394:08:00" ∧
    Interval.visit .debug u cs (.str b!"35791394:08:00") = .panic ∧
    Interval.visit .release u cs (.str b!"35791394:08:00") = .ok ⟨0, 0, -128849018880000000⟩ := by
  have hw : (⟨0, 0, 128849018880000000⟩ : Interval).WF ∧ HoursFit 128849018880000000 ∧
      intervalText .sqlStandard ⟨0, 0, 128849018880000000⟩ = b!"35791394:08:00" := by decide +kernel
  have hs : scan u b!"35791394:08:00" = .ok [(.time, b!"35791394:08:00")] := by cases u <;> decide +kernel
  have hdec : ∀ p, St.orElse (decodeInterval p plainLook (parseRange (-1)) .sqlStandard
      [(.time, b!"35791394:08:00")]) (noLook (decodeIsoInterval p b!"35791394:08:00")) ({}, ()) =
        (.ok (), ({ t := ({ hour := 35791394, min := 8 }, 0), fMask := DTK_TIME_M, tMask := DTK_TIME_M, ty := 21 }, ())) := by
    intro p
    cases p <;> decide +kernel
  refine ⟨?_, ?_, ?_⟩
  · rw [C52_text p _ hw.1 hw.2.1 (by decide) (by decide) .sqlStandard junk hj, hw.2.2]
  · rw [Interval.visit, interval_run .debug u hcs (-1) .sqlStandard hs (hdec .debug)]; decide +kernel
  · rw [Interval.visit, interval_run .release u hcs (-1) .sqlStandard hs (hdec .release)]; decide +kernel

end Props
