import Verif.Lemmas.TimeOnly
import Verif.Props.Format

/-!
# Properties C35 and C46: clock times on input

`c` is the state of the thread's keyword caches, `u` the uninitialised type of a lone sign.
-/

namespace Props
open Pg Spec

theorem hmsText_eq (hh mm ss : Bytes) (f : Option Bytes) : hmsText hh mm ss f = hmsBytes hh mm ss f := by
  unfold hmsText hmsBytes
  cases f <;> simp [fracBytes]

/-! ## C46 -/

/-- **C46, times of day.** A text `hh:mm:ss[.f]` (up to 128 bytes; numbers of up to ten digits and a
fraction of up to seven digits) is read as exactly the named time, the fraction rounded to a nearest
microsecond, if that is a time of day from 00:00:00 to 24:00:00 with minutes up to 59 and seconds up to
60; otherwise it is an error. -/
theorem C46_time_partial (p : Profile) (u : TokenField) (c : Caches) (hc : c.Ok) (order : DateOrder)
    (hh mm ss : Bytes) (f : Option Bytes) (h1 : Digits hh) (n1 : hh ≠ []) (h2 : Digits mm) (n2 : mm ≠ [])
    (h3 : Digits ss) (n3 : ss ≠ []) (hf : Digits (f.getD [])) (hl : (hmsText hh mm ss f).length ≤ 128)
    (hs : hh.length ≤ 10 ∧ mm.length ≤ 10 ∧ ss.length ≤ 10 ∧ (f.getD []).length ≤ 7) :
    ∃ us, NearestMicros (f.getD []) us ∧
      if ClockInput (value hh) (value mm) (value ss) us then
        Time.tryFromStr p u c (hmsText hh mm ss f) (-1) order =
          .ok ⟨clockValue (value hh) (value mm) (value ss) us⟩
      else (Time.tryFromStr p u c (hmsText hh mm ss f) (-1) order).IsErr := by
  have e : f.getD [] = fracDigits f := by cases f <;> rfl
  rw [e] at hf hs ⊢
  refine ⟨fracMicros f, fracMicros_nearest hf hs.2.2.2, ?_⟩
  rw [hmsText_eq] at hl ⊢
  have := time_hms p u hc order h1 n1 h2 n2 h3 n3 hf hl
  by_cases hi : ClockInput (value hh) (value mm) (value ss) (fracMicros f)
  · rw [if_pos hi]; rwa [if_pos ⟨hs, hi⟩] at this
  · rw [if_neg hi]; rwa [if_neg (fun h => hi h.2)] at this

/-- **C46, times of day.** A fraction of up to six digits is read exactly. -/
theorem C46_time_exact (p : Profile) (u : TokenField) (c : Caches) (hc : c.Ok) (order : DateOrder)
    (hh mm ss : Bytes) (f : Option Bytes) (h1 : Digits hh) (n1 : hh ≠ []) (h2 : Digits mm) (n2 : mm ≠ [])
    (h3 : Digits ss) (n3 : ss ≠ []) (hf : Digits (f.getD []))
    (hs : hh.length ≤ 10 ∧ mm.length ≤ 10 ∧ ss.length ≤ 10 ∧ (f.getD []).length ≤ 6)
    (us : Int) (hus : us = value (f.getD []) * 10 ^ (6 - (f.getD []).length)) :
    if ClockInput (value hh) (value mm) (value ss) us then
      Time.tryFromStr p u c (hmsText hh mm ss f) (-1) order =
        .ok ⟨clockValue (value hh) (value mm) (value ss) us⟩
    else (Time.tryFromStr p u c (hmsText hh mm ss f) (-1) order).IsErr := by
  have e : f.getD [] = fracDigits f := by cases f <;> rfl
  rw [e] at hf hs hus
  have hm : us = fracMicros f := by
    rw [fracMicros_exact hf hs.2.2.2, hus]; push_cast; rfl
  have hl : (hmsText hh mm ss f).length ≤ 128 := by
    have h4 := hs.2.2.2
    cases f <;> simp [hmsText, fracDigits] at h4 ⊢ <;> omega
  rw [hm]
  rw [hmsText_eq] at hl ⊢
  have := time_hms p u hc order h1 n1 h2 n2 h3 n3 hf hl
  by_cases hi : ClockInput (value hh) (value mm) (value ss) (fracMicros f)
  · rw [if_pos hi]; rwa [if_pos ⟨⟨hs.1, hs.2.1, hs.2.2.1, by omega⟩, hi⟩] at this
  · rw [if_neg hi]; rwa [if_neg (fun h => hi h.2)] at this

/-- **C46 is violated:** a fraction of more than seven digits, or a number of more than ten digits
(leading zeros included), is always an error. -/
theorem C46_time_long (p : Profile) (u : TokenField) (c : Caches) (hc : c.Ok) (order : DateOrder)
    (hh mm ss : Bytes) (f : Option Bytes) (h1 : Digits hh) (n1 : hh ≠ []) (h2 : Digits mm) (n2 : mm ≠ [])
    (h3 : Digits ss) (n3 : ss ≠ []) (hf : Digits (f.getD [])) (hl : (hmsText hh mm ss f).length ≤ 128)
    (hs : ¬ (hh.length ≤ 10 ∧ mm.length ≤ 10 ∧ ss.length ≤ 10 ∧ (f.getD []).length ≤ 7)) :
    (Time.tryFromStr p u c (hmsText hh mm ss f) (-1) order).IsErr := by
  have e : f.getD [] = fracDigits f := by cases f <;> rfl
  rw [e] at hf hs
  rw [hmsText_eq] at hl ⊢
  have := time_hms p u hc order h1 n1 h2 n2 h3 n3 hf hl
  rwa [if_neg (fun h => hs h.1)] at this

example : Time.tryFromStr .debug .date Caches.new b!"13:04:59.1234567" (-1) .ymd = .ok ⟨47099123457⟩ ∧
    hmsText b!"13" b!"04" b!"59" (some b!"1234567") = b!"13:04:59.1234567" ∧
    NearestMicros b!"1234567" 123457 := by
  refine ⟨by decide +kernel, by decide, by constructor <;> decide⟩
example : ClockInput 24 0 0 0 ∧ ¬ ClockInput 24 0 1 0 ∧ ¬ ClockInput 25 0 0 0 ∧ ¬ ClockInput 23 60 0 0 := by
  decide
example : (Time.tryFromStr .debug .date Caches.new b!"00:00:00.10000000" (-1) .ymd).IsErr :=
  ⟨.overflow, by decide +kernel⟩
example : (Time.tryFromStr .debug .date Caches.new b!"24:00:00.0000005" (-1) .ymd).IsErr :=
  ⟨.overflow, by decide +kernel⟩

/-! ## C35 -/

/-- **C35.** Every time of day up to 24:00, printed in any style, is read back unchanged. -/
theorem C35 (p p' : Profile) (u : TokenField) (c : Caches) (hc : c.Ok) (junk : Bytes)
    (hj : junk.length = 128) (t : Time) (ht : 0 ≤ t.v ∧ t.v ≤ 86400000000) (style : DateStyle)
    (order : DateOrder) :
    ∃ text, t.format p junk style = .ok text ∧ Time.tryFromStr p' u c text (-1) order = .ok t := by
  obtain ⟨v⟩ := t
  simp only at ht
  -- the clock reading
  obtain ⟨k, hk, hv⟩ : ∃ k : Clock, (k.Real ∨ k = ⟨24, 0, 0, 0⟩) ∧ k.micros = v := by
    by_cases h24 : v = 86400000000
    · exact ⟨⟨24, 0, 0, 0⟩, Or.inr rfl, by rw [h24]; rfl⟩
    · refine ⟨clockOf v, Or.inl (clockOf_real v), ?_⟩
      rw [clockOf_micros]; omega
  subst hv
  refine ⟨clockText k, C51_time p junk hj k hk style, ?_⟩
  obtain ⟨h, mi, s, us⟩ := k
  have hb : 0 ≤ h ∧ h ≤ 24 ∧ 0 ≤ mi ∧ mi ≤ 59 ∧ 0 ≤ s ∧ s ≤ 59 ∧ 0 ≤ us ∧ us ≤ 999999 ∧
      (h ≠ 24 ∨ mi = 0 ∧ s = 0 ∧ us = 0) := by
    rcases hk with hk | hk
    · unfold Clock.Real at hk; simp only at hk; omega
    · simp only [Clock.mk.injEq] at hk; omega
  rw [clockText_hms]
  simp only
  have l1 := two_len_le (v := h) (by omega)
  have l2 := two_len_le (v := mi) (by omega)
  have l3 := two_len_le (v := s) (by omega)
  have l4 := fracOf_len (us := us) (by omega) (by omega)
  have v1 := two_value (v := h) (by omega)
  have v2 := two_value (v := mi) (by omega)
  have v3 := two_value (v := s) (by omega)
  have v4 := fracOf_micros (us := us) (by omega) (by omega)
  have hl : (hmsBytes (two h) (two mi) (two s) (fracOf us)).length ≤ 128 := by
    have : (fracBytes (fracOf us)).length ≤ (fracDigits (fracOf us)).length + 1 := by
      cases fracOf us <;> simp [fracBytes, fracDigits]
    simp only [hmsBytes, List.length_append, List.length_cons]
    omega
  have := time_hms p' u hc order (two_digits h) (two_ne h) (two_digits mi) (two_ne mi) (two_digits s)
    (two_ne s) (fracOf_digits us) hl
  rw [if_pos] at this
  · rw [this, v4]
    unfold clockValue Clock.micros
    simp only [v1, v2, v3]
  · refine ⟨⟨by omega, by omega, by omega, by omega⟩, by omega, by omega, by omega, ?_⟩
    rw [v4]
    omega

example : (⟨86399999990⟩ : Time).format .release (List.replicate 128 7) .iso = .ok b!"23:59:59.99999" ∧
    Time.tryFromStr .debug .date Caches.new b!"23:59:59.99999" (-1) .dmy = .ok ⟨86399999990⟩ := by
  decide +kernel

end Props
