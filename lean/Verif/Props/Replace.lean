import Verif.Lemmas.Replace
import Verif.Spec.Replace
import Verif.Props.Shuffle
import Verif.Props.Agree

/-!
# Property C101: another clock time in a text moves the value by the difference

`c` is the state of the thread's keyword caches, `u` the uninitialised type of a lone sign. Where the text says `am` or `pm` the
new hour must be in the same half of the day as the old one.
-/

namespace Pg
open Spec

/-- The fields of the two texts. -/
theorem retimed_scan {hh mm ss hh' mm' ss' s t : Bytes} (h : Retimed hh mm ss hh' mm' ss' s t) {u : TokenField} {l : List Field}
    (hs : scan u s = .ok l) : ∃ f l1 l2, ClockSwap hh mm ss hh' mm' ss' f ∧ l = l1 ++ (.time, hmsBytes hh mm ss f) :: l2 ∧
      scan u t = .ok (l1 ++ (.time, hmsBytes hh' mm' ss' f) :: l2) := by
  obtain ⟨⟨a, r, f, z, rfl, rfl, hr, ha, hn, hf, hz, good⟩, ⟨h1, h2, h3⟩, ⟨g1, g2, g3⟩, hl, short⟩ := h
  have ef : f.getD [] = fracDigits f := by cases f <;> rfl
  rw [ef] at hf good
  have mark : ∀ {hh mm ss : Bytes}, Digits hh ∧ hh ≠ [] → Digits mm ∧ mm ≠ [] → Digits ss ∧ ss ≠ [] → Mark.clock.Is (hmsText hh mm ss f) := by
    intro hh mm ss h1 h2 h3
    rw [hmsText_bytes]
    refine ⟨hh, mm ++ 58 :: (ss ++ fracBytes f), by simp [hmsBytes], h1.2, h1.1, fun b hb => ?_⟩
    have := hms_timeB h2.1 h3.1 hf b hb
    simp only [isTimeB, Bool.or_eq_true, isDigit_iff, decide_eq_true_eq] at this
    unfold Digit
    tauto
  have hst : Stops isTimeB z := by
    intro b hb
    obtain ⟨q1, q2, q3⟩ := hz b hb
    have : isDigit b = false := by rw [Bool.eq_false_iff, ne_eq, isDigit_iff]; exact q1
    simp [isTimeB, this, q2, q3]
  have hX : TimeLead r := by
    cases hr with
    | nothing => exact Or.inl rfl
    | t b h => exact Or.inr ⟨b, h, Or.inl rfl⟩
    | date b d x y z h hd h3 => exact Or.inr ⟨b, h, Or.inr ⟨d, x, y, z, hd, h3.1, h3.2.1, h3.2.2, rfl⟩⟩
  obtain ⟨l1, l2, k1, k2, -⟩ := scan_swap (w' := hmsText hh' mm' ss' f) (ha.imp_right fun ⟨x, b, e, hb⟩ => ⟨x, b, e, hb⟩) (noSign_of hn) hX (mark h1 h2 h3)
    (mark g1 g2 g3) (by cases f <;> simp [hmsText] <;> omega) hst hs
  rw [hmsText_bytes] at k1
  rw [hmsText_bytes hh' mm' ss' f] at k2 ⊢
  exact ⟨f, l1, l2, ⟨h1, h2, h3, g1, g2, g3, hf, short, good⟩, k1, k2⟩

theorem time_noTypmod (p : Profile) (t : Time) : t.adjustByTypmod p (-1) = .ok t := by
  unfold Time.adjustByTypmod
  simp

theorem time_decoded {p : Profile} {u : TokenField} {c : Caches} (hc : c.Ok) {typmod : Int} {order : DateOrder} {s : Bytes}
    {v : Time} (h : Time.tryFromStr p u c s typmod order = .ok v) :
    ∃ l d t, scan u s = .ok l ∧ decodeTimeOnly p plainLook order l ({}, ()) = (.ok (), (d, ())) ∧
      Time.fromPgtime p d.tm d.fSec = .ok t ∧ t.adjustByTypmod p typmod = .ok v := by
  unfold Time.tryFromStr at h
  rw [(same_time p u typmod order s c hc).1] at h
  unfold Time.tryFromStrW at h
  obtain ⟨l, _, h1, h⟩ := St.bind_inv h
  obtain ⟨⟨_, d⟩, _, h2, h⟩ := St.bind_inv h
  obtain ⟨t, _, h3, h⟩ := St.bind_inv h
  exact ⟨l, d, t, congrArg Prod.fst h1, runLocal_inv h2, congrArg Prod.fst h3, h⟩

/-- Both timestamps, after decoding. -/
theorem timestamp_shift {p : Profile} {d : Dec} {v : Timestamp} {h' m' s' : Int} (hk : d.dType = .date) (hv : Timestamp.ofDec p d = .ok v)
    (hc : ClockIn 999 d.tm d.fSec) (hh : 0 ≤ h' ∧ h' ≤ 999) (hm : 0 ≤ m' ∧ m' ≤ 999) (hs : 0 ≤ s' ∧ s' ≤ 999) :
    let w := v.v + (((h' * 60 + m') * 60 + s') - ((d.tm.hour * 60 + d.tm.min) * 60 + d.tm.sec)) * 1000000
    if TsRange w then Timestamp.ofDec p (putD (h', m', s') d) = .ok ⟨w⟩ else (Timestamp.ofDec p (putD (h', m', s') d)).IsErr := by
  obtain ⟨c1, c2, c3, c4⟩ := hc
  rw [timestampOfDec_day hk] at hv
  rw [timestampOfDec_day (d := putD (h', m', s') d) hk]
  have ed : (putD (h', m', s') d).day p = d.day p := rfl
  rw [ed]
  cases hd : d.day p with
  | err e => rw [hd] at hv; cases hv
  | panic => rw [hd] at hv; cases hv
  | ok n =>
    rw [hd, Res.bind_ok, time2t_eq p _ _ _ _ (by omega) (by omega) (by omega) (by omega), Res.bind_ok] at hv
    rw [Res.bind_ok]
    show let w := _; if TsRange w then (time2t p h' m' s' d.fSec >>= _) = _ else Res.IsErr (time2t p h' m' s' d.fSec >>= _)
    rw [time2t_eq p _ _ _ _ (by omega) (by omega) (by omega) (by omega), Res.bind_ok]
    unfold Clock.micros at hv ⊢
    dsimp only at hv ⊢
    have k1 := timestamp_sum n (((d.tm.hour * 60 + d.tm.min) * 60 + d.tm.sec) * 1000000 + d.fSec) (by omega) (by omega)
    have k2 := timestamp_sum n (((h' * 60 + m') * 60 + s') * 1000000 + d.fSec) (by omega) (by omega)
    split at k1
    · have e : v.v = n * 86400000000 + (((d.tm.hour * 60 + d.tm.min) * 60 + d.tm.sec) * 1000000 + d.fSec) := by
        have := hv.symm.trans k1
        cases this
        rfl
      have e2 : v.v + (((h' * 60 + m') * 60 + s') - ((d.tm.hour * 60 + d.tm.min) * 60 + d.tm.sec)) * 1000000 =
          n * 86400000000 + (((h' * 60 + m') * 60 + s') * 1000000 + d.fSec) := by omega
      rw [e2]
      exact k2
    · obtain ⟨e, k1⟩ := k1
      rw [hv] at k1
      cases k1

end Pg

namespace Props
open Pg Spec

/-- **C101, timestamps.** -/
theorem C101_timestamp (p : Profile) (u : TokenField) (c : Caches) (hc : c.Ok) (order : DateOrder) (hh mm ss hh' mm' ss' s t : Bytes)
    (h : Retimed hh mm ss hh' mm' ss' s t) (hn : SameHalf (value hh) (value hh') ∨ ¬ Says [b!"am", b!"pm"] s) (v : Timestamp)
    (hv : Timestamp.tryFromStr p u c s (-1) order = .ok v) :
    if v.v = 9223372036854775807 ∨ v.v = -9223372036854775808 then Timestamp.tryFromStr p u c t (-1) order = .ok v
    else if TsRange (v.v + clockShift hh mm ss hh' mm' ss') then
      Timestamp.tryFromStr p u c t (-1) order = .ok ⟨v.v + clockShift hh mm ss hh' mm' ss'⟩
    else (Timestamp.tryFromStr p u c t (-1) order).IsErr := by
  obtain ⟨l, d, x, h1, h2, h3, h4⟩ := timestamp_decoded hc hv
  have kind := timestamp_kind h3 h4
  rw [timestamp_noTypmod] at h4
  cases h4
  obtain ⟨f, l1, l2, w, rfl, k⟩ := retimed_scan h h1
  have hn' : HalfAlike (value hh) (value hh') ∨ ¬ Says [b!"am", b!"pm"] s := by
    refine hn.imp_left fun hn => ?_
    unfold SameHalf at hn
    unfold HalfAlike
    omega
  obtain ⟨δ, hδ, ⟨us, hin⟩, old, e1, e2, e3, run⟩ := decode_swap w (scan_wordAt h1) hn' h2
  dsimp only at e1 e2 e3
  have hf := (decode_in (N := 2147483647) (by omega) (by omega) (scan_good h1 (by omega)) h2).f
  rw [timestamp_run p u hc (-1) order k run, Res.bind_ok]
  have fin : ∀ r : Res Timestamp, (r >>= fun t => t.adjustByTypmod p (-1)) = r := by
    intro r
    cases r with
    | ok t => exact timestamp_noTypmod p t
    | err e => rfl
    | panic => rfl
  rw [fin]
  unfold ClockInput at hin
  rcases kind with ⟨k1, k2, k3⟩ | ⟨k1, k2⟩ | ⟨k1, k2⟩
  · rw [if_neg (by omega)]
    have := timestamp_shift (h' := value hh' + δ) (m' := value mm') (s' := value ss') k1 h3 ⟨by omega, by omega, by omega, hf⟩
      (by omega) (by omega) (by omega)
    dsimp only at this
    have e : v.v + (((((value hh' : Int) + δ) * 60 + value mm') * 60 + value ss') - ((d.tm.hour * 60 + d.tm.min) * 60 + d.tm.sec)) * 1000000 =
        v.v + clockShift hh mm ss hh' mm' ss' := by
      unfold clockShift clockValue
      omega
    rw [e] at this
    exact this
  · rw [if_pos (by omega), ← h3]
    unfold Timestamp.ofDec
    simp only [putD, k1]
  · rw [if_pos (by omega), ← h3]
    unfold Timestamp.ofDec
    simp only [putD, k1]

/-- **C101, dates.** -/
theorem C101_date (p : Profile) (u : TokenField) (c : Caches) (hc : c.Ok) (order : DateOrder) (hh mm ss hh' mm' ss' s t : Bytes)
    (h : Retimed hh mm ss hh' mm' ss' s t) (hn : SameHalf (value hh) (value hh') ∨ ¬ Says [b!"am", b!"pm"] s) (v : Date)
    (hv : Date.tryFromStr p u c s order = .ok v) : Date.tryFromStr p u c t order = .ok v := by
  obtain ⟨l, d, h1, h2, h3⟩ := date_decoded hc hv
  obtain ⟨f, l1, l2, w, rfl, k⟩ := retimed_scan h h1
  have hn' : HalfAlike (value hh) (value hh') ∨ ¬ Says [b!"am", b!"pm"] s := by
    refine hn.imp_left fun hn => ?_
    unfold SameHalf at hn
    unfold HalfAlike
    omega
  obtain ⟨δ, hδ, ⟨us, hin⟩, old, e1, e2, e3, run⟩ := decode_swap w (scan_wordAt h1) hn' h2
  rw [date_run p u hc order k run, Res.bind_ok, ← h3]
  rfl

/-- **C101, times.** -/
theorem C101_time (p : Profile) (u : TokenField) (c : Caches) (hc : c.Ok) (order : DateOrder) (hh mm ss hh' mm' ss' s t : Bytes)
    (h : Retimed hh mm ss hh' mm' ss' s t) (hn : SameHalf (value hh) (value hh') ∨ ¬ Says [b!"am", b!"pm"] s) (v : Time)
    (hv : Time.tryFromStr p u c s (-1) order = .ok v) :
    Time.tryFromStr p u c t (-1) order = .ok ⟨v.v + clockShift hh mm ss hh' mm' ss'⟩ := by
  obtain ⟨l, d, x, h1, h2, h3, h4⟩ := time_decoded hc hv
  rw [time_noTypmod] at h4
  cases h4
  obtain ⟨f, l1, l2, w, rfl, k⟩ := retimed_scan h h1
  have hn' : HalfAlike (value hh) (value hh') ∨ ¬ Says [b!"am", b!"pm"] s := by
    refine hn.imp_left fun hn => ?_
    unfold SameHalf at hn
    unfold HalfAlike
    omega
  obtain ⟨δ, hδ, e1, e2, e3, b1, b2, run⟩ := decodeT_swap w (scan_wordAt h1) hn' h2
  dsimp only at e1 e2 e3 b1 b2
  rw [badTimeOnly_iff e1 e2 e3 rfl] at b1
  rw [badTimeOnly_iff (d := putD (value hh' + δ, value mm', value ss') d) (h := value hh' + δ) (m := value mm') (s := value ss') (f := d.fSec) rfl rfl rfl rfl] at b2
  rw [time_fromPgtime p e1 e2 e3 (by omega) (by omega) (by omega) (by omega)] at h3
  cases h3
  rw [time_run p u hc (-1) order k run, Res.bind_ok]
  show (Time.fromPgtime p (putTm (value hh' + δ, value mm', value ss') d.tm) d.fSec >>= _) = _
  rw [time_fromPgtime p (h := value hh' + δ) (m := value mm') (s := value ss') rfl rfl rfl (by omega) (by omega) (by omega) (by omega), Res.bind_ok, time_noTypmod]
  congr 2
  unfold clockShift clockValue
  dsimp only
  omega

/-! ## Cases -/

/-- Twenty to six in the evening instead of half past eight. -/
example : Retimed b!"08" b!"30" b!"00" b!"5" b!"039" b!"58" b!"Tue Jan 2 08:30:00.25pm 2024 AD" b!"Tue Jan 2 5:039:58.25pm 2024 AD" ∧
    SameHalf (value b!"08") (value b!"5") := by
  refine ⟨⟨⟨b!"Tue Jan 2 ", [], some b!"25", b!"pm 2024 AD", by decide, by decide, .nothing, Or.inr ⟨b!"Tue Jan 2", 32, by decide, by decide⟩,
    by unfold EndsInSign; decide, by unfold Digits; decide, by unfold Digit; decide, fun us _ => by unfold ClockInput; simp [value]⟩,
    by unfold ThreeNumbers Digits; decide, by unfold ThreeNumbers Digits; decide, by decide, by decide⟩, by unfold SameHalf; decide⟩
example (p : Profile) :
    Timestamp.tryFromStr p .number Caches.new b!"Tue Jan 2 08:30:00.25pm 2024 AD" (-1) .mdy = .ok ⟨757542600250000⟩ ∧
    Timestamp.tryFromStr p .number Caches.new b!"Tue Jan 2 5:039:58.25pm 2024 AD" (-1) .mdy = .ok ⟨757532398250000⟩ ∧
    clockShift b!"08" b!"30" b!"00" b!"5" b!"039" b!"58" = -10202000000 := by
  cases p <;> decide +kernel
/-- An ISO 8601 text. -/
example : Retimed b!"08" b!"30" b!"00" b!"24" b!"00" b!"00" b!"2024-02-28T08:30:00.0" b!"2024-02-28T24:00:00.0" := by
  refine ⟨⟨[], b!"2024-02-28T", some b!"0", [], by decide, by decide, .date 84 45 b!"2024" b!"02" b!"28" (Or.inl rfl) (by unfold Separator; decide)
    (by unfold ThreeNumbers Digits; decide), Or.inl rfl, by unfold EndsInSign; decide, by unfold Digits; decide, by unfold Digit; decide, fun us h => by
      unfold NearestMicros at h; unfold ClockInput; simp [value] at h ⊢; omega⟩,
    by unfold ThreeNumbers Digits; decide, by unfold ThreeNumbers Digits; decide, by decide, by decide⟩
example (p : Profile) :
    Timestamp.tryFromStr p .number Caches.new b!"2024-02-28T08:30:00.0" (-1) .mdy = .ok ⟨762424200000000⟩ ∧
    Timestamp.tryFromStr p .number Caches.new b!"2024-02-28T24:00:00.0" (-1) .mdy = .ok ⟨762480000000000⟩ ∧
    clockShift b!"08" b!"30" b!"00" b!"24" b!"00" b!"00" = 55800000000 := by
  cases p <;> decide +kernel
/-- Half a day is not added to an hour after noon, so the hours must be in the same half of the day. -/
example (p : Profile) :
    Time.tryFromStr p .number Caches.new b!"11:00:00 pm" (-1) .mdy = .ok ⟨82800000000⟩ ∧
    Time.tryFromStr p .number Caches.new b!"12:00:00 pm" (-1) .mdy = .ok ⟨43200000000⟩ := by
  cases p <;> decide +kernel
/-- The last moment of the range: one second more is refused. -/
example (p : Profile) :
    Timestamp.tryFromStr p .number Caches.new b!"294276-12-31 23:59:59.999999" (-1) .mdy = .ok ⟨9223371331199999999⟩ ∧
    (Timestamp.tryFromStr p .number Caches.new b!"294276-12-31 23:59:60.999999" (-1) .mdy).IsErr := by
  refine ⟨by cases p <;> decide +kernel, ?_⟩
  cases p
  · exact ⟨.invalid, by decide +kernel⟩
  · exact ⟨.invalid, by decide +kernel⟩

end Props
