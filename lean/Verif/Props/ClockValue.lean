import Verif.Lemmas.ClockValue
import Verif.Props.Replace

/-!
# Property C107: the clock time of a text is the time of day

`c` is the state of the thread's keyword caches, `u` the uninitialised type of a lone sign. The text may name the day in any way, before
the clock time or after it. For timestamps there must be no decimal point after the clock time: the fraction of a later number overwrites
the fraction of the seconds (`C107_violated`).
-/

namespace Pg
open Spec

theorem scanLoop_half {pm : Bool} {w c : Bytes} {u : TokenField} (hm : MeridiemWord pm w) (hc : Over c) {fuel cap nf : Nat} {l : List Field}
    (hf : (w ++ c).length < fuel) (h : scanLoop u fuel (w ++ c) cap nf = .ok l) : (.string, merWord pm) ∈ l := by
  obtain ⟨m1, m2, -⟩ := merWord_letters hm
  obtain ⟨b, r, rfl, h1, h2⟩ := word_scan (u := u) m1 m2 hc
  obtain ⟨-, ⟨l2, rfl, -⟩, -⟩ := scanLoop_oneWord (r := r) (r' := r) h1 h1 h2 h2 rfl fuel cap nf l hf h
  rw [merWord_lower hm]
  exact List.mem_cons_self

theorem hasClock_scan {hh mm ss : Bytes} {f : Option Bytes} {z s : Bytes} (h : HasClock hh mm ss f z s) {u : TokenField} {l : List Field}
    (hs : scan u s = .ok l) : ∃ l1 l2, l = l1 ++ (.time, hmsBytes hh mm ss f) :: l2 ∧ (46 ∉ z → ∀ g ∈ l2, 46 ∉ g.2) ∧
      ∀ pm, HasHalf pm z s → ∃ w, (.string, w) ∈ l ∧ tokenResult (lookupIn dateTable w) = (.ampm, if pm then 1 else 0) := by
  have table : ∀ pm, tokenResult (lookupIn dateTable (merWord pm)) = (.ampm, if pm then 1 else 0) := by decide +kernel
  have own : ∀ pm, (∃ l1 w l2, words s = l1 ++ w :: l2 ∧ MeridiemWord pm w ∧ ∀ x ∈ l1, ¬ EndsInSign x) → (.string, merWord pm) ∈ l := by
    rintro pm ⟨w1, w, w2, hw, hm, hn⟩
    obtain ⟨m1, m2, -⟩ := merWord_letters hm
    obtain ⟨a, c, rfl, k2, k3, k4, k5⟩ := a_word w1 hw
    unfold scan at hs
    split at hs
    · cases hs
    · obtain ⟨l1, l2, fu, ca, nf, rfl, hf, hl⟩ := scanLoop_within _ a _ _ _ k3 (noSign_of (by rw [k2]; exact hn)) (Nat.lt_succ_self _) hs
      exact List.mem_append_right _ (scanLoop_half hm k4 hf hl)
  obtain ⟨⟨h1, h2, h3⟩, hf, hz, a, r, rfl, hr, ha, hn⟩ := h
  have ef : f.getD [] = fracDigits f := by cases f <;> rfl
  rw [ef] at hf
  have mark : Mark.clock.Is (hmsText hh mm ss f) := by
    rw [hmsText_bytes]
    refine ⟨hh, mm ++ 58 :: (ss ++ fracBytes f), by simp [hmsBytes], h1.2, h1.1, fun b hb => ?_⟩
    have := hms_timeB h2.1 h3.1 hf b hb
    simp only [isTimeB, Bool.or_eq_true, isDigit_iff, decide_eq_true_eq] at this
    unfold Digit
    tauto
  have hst : Stops isTimeB z := by
    intro b hb
    obtain ⟨q1, q2, q3⟩ := hz b hb
    have : isDigit b = false := by rw [Bool.eq_false_iff, ne_eq, isDigit_iff]; exact q1
    simp [isTimeB, this, q2, q3]
  have hX : TimeLead r := by
    cases hr with
    | nothing => exact Or.inl rfl
    | t b h => exact Or.inr ⟨b, h, Or.inl rfl⟩
    | date b d x y z h hd h3 => exact Or.inr ⟨b, h, Or.inr ⟨d, x, y, z, hd, h3.1, h3.2.1, h3.2.2, rfl⟩⟩
  obtain ⟨l1, l2, k1, -, n, cap, nf, kn, k3⟩ := scan_swap (ha.imp_right fun ⟨x, b, e, hb⟩ => ⟨x, b, e, hb⟩) (noSign_of hn) hX mark mark rfl hst hs
  rw [hmsText_bytes] at k1
  refine ⟨l1, l2, k1, fun h => scanLoop_noDot n z cap nf l2 h k3, fun pm hp => ⟨merWord pm, ?_, table pm⟩⟩
  rcases hp with hp | ⟨w, c, rfl, hm, hc⟩
  · exact own pm hp
  · rw [k1]
    refine List.mem_append_right _ (List.mem_cons_of_mem _ (scanLoop_half hm ?_ kn k3))
    cases c with
    | nil => exact Or.inl rfl
    | cons b c => exact Or.inr ⟨b, c, rfl, hc b rfl⟩

end Pg

namespace Props
open Pg Spec

/-- **C107, timestamps.** A finite timestamp is the date that the same text names, at the hour, minute and second of its clock time, with
the microseconds nearest to the fraction. -/
theorem C107_timestamp_partial (p : Profile) (u : TokenField) (c : Caches) (hc : c.Ok) (order : DateOrder) (hh mm ss z s : Bytes)
    (f : Option Bytes) (h : HasClock hh mm ss f z s) (hz : 46 ∉ z) (v : Timestamp) (hv : Timestamp.tryFromStr p u c s (-1) order = .ok v) :
    (v.v = 9223372036854775807 ∨ v.v = -9223372036854775808) ∨
    ∃ (n : Int) (H : Nat) (us : Int), HourSaid z s (value hh) H ∧ NearestMicros (f.getD []) us ∧
      ClockInput (value hh) (value mm) (value ss) us ∧ v.v = n * 86400000000 + clockValue H (value mm) (value ss) us ∧
      if DateRange n then Date.tryFromStr p u c s order = .ok ⟨n⟩ else (Date.tryFromStr p u c s order).IsErr := by
  obtain ⟨l, d, x, h1, h2, h3, h4⟩ := timestamp_decoded hc hv
  have kind := timestamp_kind h3 h4
  rw [timestamp_noTypmod] at h4
  cases h4
  obtain ⟨l1, l2, rfl, hl, hp⟩ := hasClock_scan h h1
  obtain ⟨⟨g1, g2, g3⟩, hf, -⟩ := h
  have ef : f.getD [] = fracDigits f := by cases f <;> rfl
  rw [ef] at hf ⊢
  obtain ⟨H, k1, k2, k3, k4, k5, k6, k7⟩ := decode_clock g1 g2 g3 hf (hl hz) (scan_wordAt h1) hp h2
  dsimp only at k4 k5 k6 k7
  have hfb := (decode_in (N := 2147483647) (by omega) (by omega) (scan_good h1 (by omega)) h2).f
  rcases kind with ⟨q1, q2, q3⟩ | ⟨q1, q2⟩ | ⟨q1, q2⟩
  · right
    have hH : H ≤ 24 := by
      unfold ClockInput at k2
      rcases k1.either with k1 | ⟨-, k1⟩ | ⟨-, k1⟩
      · omega
      · have := hour24_le k1; omega
      · have := hour24_le k1; omega
    unfold ClockInput at k2
    rw [timestampOfDec_day q1] at h3
    have hdate := date_run p u hc order h1 h2
    rw [Res.bind_ok, dateOfDec_day q1] at hdate
    cases hd : d.day p with
    | err e => rw [hd] at h3; cases h3
    | panic => rw [hd] at h3; cases h3
    | ok n =>
      rw [hd, Res.bind_ok, time2t_eq p _ _ _ _ (by omega) (by omega) (by omega) (by omega), Res.bind_ok] at h3
      rw [hd, Res.bind_ok] at hdate
      refine ⟨n, H, fracMicros f, k1, k3, by unfold ClockInput; exact k2, ?_, ?_⟩
      · unfold Clock.micros at h3
        dsimp only at h3
        have s1 := timestamp_sum n (((d.tm.hour * 60 + d.tm.min) * 60 + d.tm.sec) * 1000000 + d.fSec) (by omega) (by omega)
        split at s1
        · have := h3.symm.trans s1
          cases this
          unfold clockValue
          rw [k4, k5, k6, k7]
        · obtain ⟨e, s1⟩ := s1
          rw [h3] at s1
          cases s1
      · rw [hdate]
        by_cases hr : DateRange n
        · rw [if_pos hr, if_pos ((isValidDate_iff _).2 hr)]
        · rw [if_neg hr, if_neg (by rw [isValidDate_iff]; exact hr)]
          exact ⟨_, rfl⟩
  · left; omega
  · left; omega

/-- **C107, times of day.** -/
theorem C107_time (p : Profile) (u : TokenField) (c : Caches) (hc : c.Ok) (order : DateOrder) (hh mm ss z s : Bytes)
    (f : Option Bytes) (h : HasClock hh mm ss f z s) (v : Time) (hv : Time.tryFromStr p u c s (-1) order = .ok v) :
    ∃ (H : Nat) (us : Int), HourSaid z s (value hh) H ∧ NearestMicros (f.getD []) us ∧ ClockInput H (value mm) (value ss) us ∧
      v.v = clockValue H (value mm) (value ss) us := by
  obtain ⟨l, d, x, h1, h2, h3, h4⟩ := time_decoded hc hv
  rw [time_noTypmod] at h4
  cases h4
  obtain ⟨l1, l2, rfl, -, hp⟩ := hasClock_scan h h1
  obtain ⟨⟨g1, g2, g3⟩, hf, -⟩ := h
  have ef : f.getD [] = fracDigits f := by cases f <;> rfl
  rw [ef] at hf ⊢
  obtain ⟨H, k1, k2, k3, k4, k5, k6, k7⟩ := decodeT_clock g1 g2 g3 hf (scan_wordAt h1) hp h2
  dsimp only at k3 k4 k5 k6 k7
  rw [badTimeOnly_iff k4 k5 k6 k7] at k3
  rw [time_fromPgtime p k4 k5 k6 (by omega) (by omega) (by omega) (by omega)] at h3
  cases h3
  refine ⟨H, fracMicros f, k1, k2, by unfold ClockInput; omega, ?_⟩
  unfold clockValue
  rw [k7]

/-- **C107, violated.** The fraction of a day overwrites the fraction of the seconds, and a time after 24:00:00 is accepted. -/
theorem C107_violated (p : Profile) :
    HasClock b!"12" b!"00" b!"00" (some b!"25") b!" Jan 2.5 2024" b!"12:00:00.25 Jan 2.5 2024" ∧
    Timestamp.tryFromStr p .number Caches.new b!"12:00:00.25 Jan 2.5 2024" (-1) .mdy = .ok ⟨757512000500000⟩ ∧
    Date.tryFromStr p .number Caches.new b!"12:00:00.25 Jan 2.5 2024" .mdy = .ok ⟨8767⟩ ∧
    (757512000500000 : Int) = 8767 * 86400000000 + clockValue 12 0 0 500000 ∧
    HasClock b!"24" b!"00" b!"00" none b!" Jan 2.5 2024" b!"24:00:00 Jan 2.5 2024" ∧
    Timestamp.tryFromStr p .number Caches.new b!"24:00:00 Jan 2.5 2024" (-1) .mdy = .ok ⟨8767 * 86400000000 + clockValue 24 0 0 500000⟩ := by
  refine ⟨⟨by unfold ThreeNumbers Digits; decide, by unfold Digits; decide, by unfold Digit; decide, [], [], by decide, .nothing, Or.inl rfl,
    by unfold EndsInSign; decide⟩, by cases p <;> decide +kernel, by cases p <;> decide +kernel, by decide,
    ⟨by unfold ThreeNumbers Digits; decide, by unfold Digits; decide, by unfold Digit; decide, [], [], by decide, .nothing, Or.inl rfl,
    by unfold EndsInSign; decide⟩, by cases p <;> decide +kernel⟩

/-! ## Cases -/

/-- A Julian day and an hour in the evening. -/
example (p : Profile) :
    HasClock b!"11" b!"30" b!"59" (some b!"9999999") b!" pm" b!"J2451545 11:30:59.9999999 pm" ∧ 46 ∉ b!" pm" ∧
    Timestamp.tryFromStr p .number Caches.new b!"J2451545 11:30:59.9999999 pm" (-1) .mdy = .ok ⟨84660000000⟩ ∧
    Date.tryFromStr p .number Caches.new b!"J2451545 11:30:59.9999999 pm" .mdy = .ok ⟨0⟩ ∧
    Time.tryFromStr p .number Caches.new b!"J2451545 11:30:59.9999999 pm" (-1) .mdy = .ok ⟨84660000000⟩ ∧
    (84660000000 : Int) = clockValue 23 30 59 1000000 := by
  refine ⟨⟨by unfold ThreeNumbers Digits; decide, by unfold Digits; decide, by unfold Digit; decide, b!"J2451545 ", [], by decide, .nothing,
    Or.inr ⟨b!"J2451545", 32, by decide, by decide⟩, by unfold EndsInSign; decide⟩, by decide, ?_⟩
  cases p <;> decide +kernel
/-- The day after the clock time. -/
example (p : Profile) :
    HasClock b!"12" b!"30" b!"00" (some b!"125") b!" am Jan 2 2024" b!"12:30:00.125 am Jan 2 2024" ∧ 46 ∉ b!" am Jan 2 2024" ∧
    Timestamp.tryFromStr p .number Caches.new b!"12:30:00.125 am Jan 2 2024" (-1) .mdy = .ok ⟨8767 * 86400000000 + clockValue 0 30 0 125000⟩ ∧
    Date.tryFromStr p .number Caches.new b!"12:30:00.125 am Jan 2 2024" .mdy = .ok ⟨8767⟩ := by
  refine ⟨⟨by unfold ThreeNumbers Digits; decide, by unfold Digits; decide, by unfold Digit; decide, [], [], by decide, .nothing,
    Or.inl rfl, by unfold EndsInSign; decide⟩, by decide, ?_⟩
  cases p <;> decide +kernel

/-- `am` and `pm` as words of their own and directly after the clock time. -/
example : HasHalf true b!" pm" b!"J2451545 11:30:59.9999999 pm" ∧ hour24 true 11 = some 23 ∧
    HasHalf false b!" am Jan 2 2024" b!"12:30:00.125 am Jan 2 2024" ∧ hour24 false 12 = some 0 ∧
    HasHalf true b!"Pm Jan 2 2024" b!"12:30:00Pm Jan 2 2024" ∧ hour24 true 12 = some 12 := by
  refine ⟨Or.inl ⟨[b!"J2451545", b!"11:30:59.9999999"], b!"pm", [], by decide, by unfold MeridiemWord SameButCase; decide, by unfold EndsInSign; decide⟩,
    by decide, Or.inl ⟨[b!"12:30:00.125"], b!"am", [b!"Jan", b!"2", b!"2024"], by decide, by unfold MeridiemWord SameButCase; decide,
      by unfold EndsInSign; decide⟩, by decide,
    Or.inr ⟨b!"Pm", b!" Jan 2 2024", by decide, by unfold MeridiemWord SameButCase; decide, by decide⟩, by decide⟩
example (p : Profile) :
    HasClock b!"12" b!"30" b!"00" none b!"Pm Jan 2 2024" b!"12:30:00Pm Jan 2 2024" ∧
    Timestamp.tryFromStr p .number Caches.new b!"12:30:00Pm Jan 2 2024" (-1) .mdy = .ok ⟨8767 * 86400000000 + clockValue 12 30 0 0⟩ := by
  refine ⟨⟨by unfold ThreeNumbers Digits; decide, by unfold Digits; decide, by unfold Digit; decide, [], [], by decide, .nothing,
    Or.inl rfl, by unfold EndsInSign; decide⟩, ?_⟩
  cases p <;> decide +kernel

end Props
