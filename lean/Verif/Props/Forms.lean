import Verif.Lemmas.FormsText
import Verif.Props.DateInput
import Verif.Props.ClockInput

/-!
# Property C59: every written form of a day and of a clock time

A day is three numbers with a separator or a run of digits `yyyymmdd`; a clock time is `hh:mm:ss[.f]`, `hh:mm`,
`mm:ss.f`, `hhmmss[.f]` or `hhmm[.f]`. `c` is the state of the thread's keyword caches, `u` the uninitialised type of
a lone sign.
-/

namespace Props
open Pg Spec

/-- **C59, times of day.** `Time::try_from_str` reads every form of a clock time, optionally with `AM` or `PM`, as the
time it names, and answers an error if the hour, minute or second is out of range. -/
theorem C59_time (p : Profile) (u : TokenField) (c : Caches) (hc : c.Ok) (order : DateOrder) (T : ClockText) (hT : T.Ok)
    (mer : Option Bool) (t : Bytes) (ht : MeridiemText mer t) :
    ∃ us, NearestMicros T.frac us ∧
      match hourOf mer T.h with
      | some k =>
        if ClockInput k T.m T.s us then
          Time.tryFromStr p u c (T.bytes ++ t) (-1) order = .ok ⟨clockValue k T.m T.s us⟩
        else (Time.tryFromStr p u c (T.bytes ++ t) (-1) order).IsErr
      | none => (Time.tryFromStr p u c (T.bytes ++ t) (-1) order).IsErr :=
  ⟨clockUs T, clockUs_nearest hT, time_form p u hc order hT ht rfl⟩

example : (ClockText.six b!"23" b!"59" b!"58" (some b!"25")).bytes = b!"235958.25" ∧
    Time.tryFromStr .debug .date Caches.new b!"235958.25" (-1) .ymd = .ok ⟨clockValue 23 59 58 250000⟩ := by
  decide +kernel
example : (ClockText.Ok (.six b!"23" b!"59" b!"58" (some b!"25"))) := by
  refine ⟨by decide, by decide, by decide, ?_⟩
  rintro fs e; cases e; decide
example : (ClockText.minSec b!"07" b!"08" b!"5").bytes = b!"07:08.5" ∧
    Time.tryFromStr .debug .date Caches.new b!"07:08.5" (-1) .ymd = .ok ⟨clockValue 0 7 8 500000⟩ := by decide +kernel
example : Time.tryFromStr .debug .date Caches.new b!"0415 pm" (-1) .ymd = .ok ⟨clockValue 16 15 0 0⟩ ∧
    (Time.tryFromStr .debug .date Caches.new b!"2460" (-1) .ymd) = .err .overflow := by decide +kernel

/-- **C59, dates.** `Date::try_from_str` reads both forms of a day, optionally with ` BC`. -/
theorem C59_date (p : Profile) (u : TokenField) (c : Caches) (hc : c.Ok) (order : DateOrder) (D : DayText) (hD : D.Ok)
    (bc : Bool) :
    match D.day order bc with
    | none => (Date.tryFromStr p u c (D.bytes ++ bcMark bc) order).IsErr
    | some day =>
      if day.InDateRange then Date.tryFromStr p u c (D.bytes ++ bcMark bc) order = .ok ⟨dayNumber day⟩
      else (Date.tryFromStr p u c (D.bytes ++ bcMark bc) order).IsErr := by
  have h := date_form (clk := none) (mer := none) (t := []) (text := D.bytes ++ bcMark bc) p u hc order bc hD trivial
    rfl (by simp [clkBytes])
  cases hd : D.day order bc with
  | none => rw [hd] at h; exact h
  | some day =>
    rw [hd] at h
    simp only [hourOf, ClkAccepted, true_and] at h ⊢
    have hr : day.Real := by rw [day_eq] at hd; exact namedDay_real hd
    exact ite_of h (inDateRange_iff hr)

/-- **C59, timestamps at midnight.** A day alone is read as its first instant. -/
theorem C59_timestamp_day (p : Profile) (u : TokenField) (c : Caches) (hc : c.Ok) (order : DateOrder) (D : DayText)
    (hD : D.Ok) (bc : Bool) :
    match D.day order bc with
    | none => (Timestamp.tryFromStr p u c (D.bytes ++ bcMark bc) (-1) order).IsErr
    | some day =>
      if TsRange (instant day ⟨0, 0, 0, 0⟩) then
        Timestamp.tryFromStr p u c (D.bytes ++ bcMark bc) (-1) order = .ok ⟨instant day ⟨0, 0, 0, 0⟩⟩
      else (Timestamp.tryFromStr p u c (D.bytes ++ bcMark bc) (-1) order).IsErr := by
  have h := timestamp_form (clk := none) (mer := none) (t := []) (text := D.bytes ++ bcMark bc) p u hc order bc hD
    trivial rfl (by simp [clkBytes])
  cases hd : D.day order bc with
  | none => rw [hd] at h; exact h
  | some day =>
    rw [hd] at h
    simp only [hourOf, ClkAccepted, true_and] at h
    exact h

example : (DayText.compact b!"2024" b!"02" b!"29").bytes = b!"20240229" ∧
    (DayText.compact b!"2024" b!"02" b!"29").day .dmy false = some ⟨2024, 2, 29⟩ ∧
    Date.tryFromStr .debug .date Caches.new b!"20240229" .dmy = .ok ⟨dayNumber ⟨2024, 2, 29⟩⟩ ∧
    Timestamp.tryFromStr .debug .date Caches.new b!"20240229" (-1) .dmy = .ok ⟨762480000000000⟩ ∧
    instant ⟨2024, 2, 29⟩ ⟨0, 0, 0, 0⟩ = 762480000000000 := by decide +kernel
example : (DayText.compact b!"2024" b!"02" b!"29").Ok := by
  exact ⟨by decide, by decide, by decide⟩
example : Date.tryFromStr .debug .date Caches.new b!"690715 BC" .ymd = .ok ⟨dayNumber ⟨-68, 7, 15⟩⟩ ∧
    (Date.tryFromStr .debug .date Caches.new b!"20230229" .ymd) = .err .overflow := by decide +kernel

/-- What the code does with a day and any clock time, for timestamps: times written with colons are checked, times
written without are not. -/
theorem C59_timestamp_exact (p : Profile) (u : TokenField) (c : Caches) (hc : c.Ok) (order : DateOrder) (D : DayText)
    (hD : D.Ok) (y : Nat) (hy : y = 32 ∨ y = 84) (T : ClockText) (hT : T.Ok) (mer : Option Bool) (t : Bytes)
    (ht : MeridiemText mer t) (bc : Bool) (text : Bytes) (he : text = D.bytes ++ [y] ++ T.bytes ++ t ++ bcMark bc) :
    ∃ us, NearestMicros T.frac us ∧
      match D.day order bc, hourOf mer T.h with
      | some day, some k =>
        if (T.colons = true → ClockInput T.h T.m T.s us) ∧ TsRange (instant day ⟨k, T.m, T.s, us⟩) then
          Timestamp.tryFromStr p u c text (-1) order = .ok ⟨instant day ⟨k, T.m, T.s, us⟩⟩
        else (Timestamp.tryFromStr p u c text (-1) order).IsErr
      | _, _ => (Timestamp.tryFromStr p u c text (-1) order).IsErr := by
  obtain ⟨sep, hsep⟩ : ∃ sep : DateSep, sep.bytes = [y] := by
    rcases hy with rfl | rfl
    · exact ⟨.space, rfl⟩
    · exact ⟨.letterT, rfl⟩
  refine ⟨clockUs T, clockUs_nearest hT, ?_⟩
  have h := timestamp_form (clk := some (sep, T)) (text := text) p u hc order bc hD hT ht
    (by rw [he, clkBytes, hsep]; simp)
  cases hd : D.day order bc with
  | none => rw [hd] at h; exact h
  | some day =>
    cases hk : hourOf mer T.h with
    | none =>
      rw [hd] at h
      simp only [clkH, hk] at h
      exact h
    | some k =>
      rw [hd] at h
      simp only [clkH, hk] at h
      exact ite_of h Iff.rfl

/-- **C59, timestamps (partial).** A day, a space or `T`, and a clock time in any form, optionally with `AM` or `PM` and
` BC`, are read as the instant they name; out-of-range clock times are errors. Missing: a time written without colons
is only covered if its fields are in range; see `C59_timestamp_violated`. -/
theorem C59_timestamp_partial (p : Profile) (u : TokenField) (c : Caches) (hc : c.Ok) (order : DateOrder) (D : DayText)
    (hD : D.Ok) (y : Nat) (hy : y = 32 ∨ y = 84) (T : ClockText) (hT : T.Ok) (mer : Option Bool) (t : Bytes)
    (ht : MeridiemText mer t) (bc : Bool) (text : Bytes) (he : text = D.bytes ++ [y] ++ T.bytes ++ t ++ bcMark bc) :
    ∃ us, NearestMicros T.frac us ∧
      ((T.colons = false → ClockInput T.h T.m T.s us) →
        match D.day order bc, hourOf mer T.h with
        | some day, some k =>
          if ClockInput T.h T.m T.s us ∧ TsRange (instant day ⟨k, T.m, T.s, us⟩) then
            Timestamp.tryFromStr p u c text (-1) order = .ok ⟨instant day ⟨k, T.m, T.s, us⟩⟩
          else (Timestamp.tryFromStr p u c text (-1) order).IsErr
        | _, _ => (Timestamp.tryFromStr p u c text (-1) order).IsErr) := by
  obtain ⟨us, h1, h⟩ := C59_timestamp_exact p u c hc order D hD y hy T hT mer t ht bc text he
  refine ⟨us, h1, ?_⟩
  intro hci
  cases hd : D.day order bc with
  | none => rw [hd] at h; exact h
  | some day =>
    cases hk : hourOf mer T.h with
    | none => rw [hd, hk] at h; exact h
    | some k =>
      rw [hd, hk] at h
      refine ite_of h ?_
      cases hcol : T.colons
      · have := hci hcol
        simp [this]
      · simp

example : Timestamp.tryFromStr .debug .date Caches.new b!"20240301T235958.25" (-1) .ymd =
    .ok ⟨instant ⟨2024, 3, 1⟩ ⟨23, 59, 58, 250000⟩⟩ ∧
    Timestamp.tryFromStr .debug .date Caches.new b!"1/3/2024 07:08.5pm BC" (-1) .dmy =
      .ok ⟨instant ⟨-2023, 3, 1⟩ ⟨12, 7, 8, 500000⟩⟩ := by decide +kernel
example : (Timestamp.tryFromStr .debug .date Caches.new b!"20240301 25:00" (-1) .ymd) = .err .overflow := by decide +kernel

/-- **C59, timestamps (violated).** Times written without colons are not checked: 99 hours, 61 minutes and 99 seconds
are accepted and carried over into the days after. -/
theorem C59_timestamp_violated : ∃ (T : ClockText) (text : Bytes), T.Ok ∧ text = b!"20240301 " ++ T.bytes ∧
    ¬ ClockInput T.h T.m T.s 0 ∧
    ∀ p, Timestamp.tryFromStr p .date Caches.new text (-1) .ymd = .ok ⟨instant ⟨2024, 3, 5⟩ ⟨4, 2, 39, 0⟩⟩ := by
  refine ⟨.six b!"99" b!"61" b!"99" none, b!"20240301 996199", ?_, by decide, by decide, ?_⟩
  · exact ⟨by decide, by decide, by decide,
      fun _ h => by cases h⟩
  · intro p; cases p <;> decide +kernel

/-- **C59, dates with a clock time.** `Date::try_from_str` ignores the clock time but refuses one with colons that is
out of range. -/
theorem C59_date_clock (p : Profile) (u : TokenField) (c : Caches) (hc : c.Ok) (order : DateOrder) (D : DayText)
    (hD : D.Ok) (y : Nat) (hy : y = 32 ∨ y = 84) (T : ClockText) (hT : T.Ok) (mer : Option Bool) (t : Bytes)
    (ht : MeridiemText mer t) (bc : Bool) (text : Bytes) (he : text = D.bytes ++ [y] ++ T.bytes ++ t ++ bcMark bc) :
    ∃ us, NearestMicros T.frac us ∧
      match D.day order bc, hourOf mer T.h with
      | some day, some _ =>
        if (T.colons = true → ClockInput T.h T.m T.s us) ∧ day.InDateRange then
          Date.tryFromStr p u c text order = .ok ⟨dayNumber day⟩
        else (Date.tryFromStr p u c text order).IsErr
      | _, _ => (Date.tryFromStr p u c text order).IsErr := by
  obtain ⟨sep, hsep⟩ : ∃ sep : DateSep, sep.bytes = [y] := by
    rcases hy with rfl | rfl
    · exact ⟨.space, rfl⟩
    · exact ⟨.letterT, rfl⟩
  refine ⟨clockUs T, clockUs_nearest hT, ?_⟩
  have h := date_form (clk := some (sep, T)) (text := text) p u hc order bc hD hT ht
    (by rw [he, clkBytes, hsep]; simp)
  cases hd : D.day order bc with
  | none => rw [hd] at h; exact h
  | some day =>
    cases hk : hourOf mer T.h with
    | none =>
      rw [hd] at h
      simp only [clkH, hk] at h
      exact h
    | some k =>
      rw [hd] at h
      simp only [clkH, hk] at h
      have hr : day.Real := by rw [day_eq] at hd; exact namedDay_real hd
      exact ite_of h (and_congr Iff.rfl (inDateRange_iff hr))

example : Date.tryFromStr .debug .date Caches.new b!"20240301 04:05 PM" .ymd = .ok ⟨dayNumber ⟨2024, 3, 1⟩⟩ ∧
    (Date.tryFromStr .debug .date Caches.new b!"2024-03-01T24:01" .ymd) = .err .overflow := by decide +kernel

end Props
