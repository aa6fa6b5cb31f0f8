import Verif.Lemmas.YearDay
import Verif.Props.Labels

/-!
# Property C69: days by their number in the year

The claim: a year and three digits from 001 to 366 is that day of that year; three other digits and days outside the range
of the type are errors. The code computes the day without checking the year first, so the claim fails for days outside
the range of dates (`C69_violated`); it holds for all others (`C69_date_partial`, `C69_timestamp_partial`).
-/

namespace Props
open Pg Spec

/-- **C69, dates.** A year and the number of a day in it; with ` BC` the year is before the common era. What is missing: a
day outside the range of dates is not always rejected. -/
theorem C69_date_partial (p : Profile) (u : TokenField) (c : Caches) (hc : c.Ok) (order : DateOrder) (D : YearDayText)
    (hD : D.Ok order) (bc : Bool) :
    match D.number bc with
    | none => (Date.tryFromStr p u c (D.bytes ++ bcMark bc) order).IsErr
    | some k => DateRange k → Date.tryFromStr p u c (D.bytes ++ bcMark bc) order = .ok ⟨k⟩ := by
  obtain ⟨hn, hl, hF⟩ := yearDay_len hD
  have h := fun hr => date_anyDate (p := p) (order := order) (clk := none) (mer := none) (bc := bc) (u := u)
    (text := D.bytes ++ bcMark bc) (reads_yearDay hD bc hr) hc trivial
    (scan_day (clk := none) (mer := none) (t := []) u hn hl hF
      (fun hr hs => scans_yearDay u hD hr hs) trivial rfl bc (by simp [clkBytes]))
  cases hd : D.number bc with
  | none =>
    have h := h (by rw [hd]; intro k hk; cases hk)
    have e : yearDayYmd D bc = none := by unfold yearDayYmd; rw [hd]; rfl
    rw [e] at h
    exact h
  | some k =>
    intro hk
    have h := h (by rw [hd]; intro k' hk'; cases hk'; exact hk)
    have e : yearDayYmd D bc = some (julianYmd (k + 2451545)) := by unfold yearDayYmd; rw [hd]; rfl
    rw [e] at h
    simp only [hourOf, ClkAccepted, true_and, julianYmd_number] at h
    rw [show k + 2451545 - 2451545 = k by omega, if_pos hk] at h
    exact h

/-- **C69, timestamps.** The same with a clock time as in C59. -/
theorem C69_timestamp_partial (p : Profile) (u : TokenField) (c : Caches) (hc : c.Ok) (order : DateOrder)
    (D : YearDayText) (hD : D.Ok order) (y : Nat) (hy : y = 32 ∨ y = 84) (T : ClockText) (hT : T.Ok)
    (mer : Option Bool) (t : Bytes) (ht : MeridiemText mer t) (bc : Bool) (text : Bytes)
    (he : text = D.bytes ++ [y] ++ T.bytes ++ t ++ bcMark bc) :
    ∃ us, NearestMicros T.frac us ∧
      match D.number bc, hourOf mer T.h with
      | some n, some k => DateRange n →
        if (T.colons = true → ClockInput T.h T.m T.s us) ∧
            TsRange (n * 86400000000 + (⟨k, T.m, T.s, us⟩ : Clock).micros) then
          Timestamp.tryFromStr p u c text (-1) order = .ok ⟨n * 86400000000 + (⟨k, T.m, T.s, us⟩ : Clock).micros⟩
        else (Timestamp.tryFromStr p u c text (-1) order).IsErr
      | some n, none => DateRange n → (Timestamp.tryFromStr p u c text (-1) order).IsErr
      | none, _ => (Timestamp.tryFromStr p u c text (-1) order).IsErr := by
  obtain ⟨sep, hsep⟩ : ∃ sep : DateSep, sep.bytes = [y] := by
    rcases hy with rfl | rfl
    · exact ⟨.space, rfl⟩
    · exact ⟨.letterT, rfl⟩
  refine ⟨clockUs T, clockUs_nearest hT, ?_⟩
  obtain ⟨hn, hl, hF⟩ := yearDay_len hD
  have h := fun hr => timestamp_anyDate (p := p) (order := order) (clk := some (sep, T)) (mer := mer) (bc := bc) (u := u)
    (text := text) (reads_yearDay hD bc hr) hc hT
    (scan_day (clk := some (sep, T)) u hn hl hF
      (fun hr hs => scans_yearDay u hD hr hs) hT ht bc (by rw [he, clkBytes, hsep]; simp))
  cases hd : D.number bc with
  | none =>
    have h := h (by rw [hd]; intro k hk; cases hk)
    have e : yearDayYmd D bc = none := by unfold yearDayYmd; rw [hd]; rfl
    rw [e] at h
    exact h
  | some n =>
    have key := fun hk : DateRange n => h (by rw [hd]; intro k' hk'; cases hk'; exact hk)
    have e : yearDayYmd D bc = some (julianYmd (n + 2451545)) := by unfold yearDayYmd; rw [hd]; rfl
    rw [e] at key
    cases hk : hourOf mer T.h with
    | none =>
      intro hn
      have h := key hn
      simp only [clkH, hk] at h
      exact h
    | some k =>
      intro hn
      have h := key hn
      simp only [clkH, hk] at h
      have ei : ∀ q, instant (julianYmd (n + 2451545)) q = n * 86400000000 + q.micros := by
        intro q
        unfold instant dayMicros
        rw [julianYmd_number, show n + 2451545 - 2451545 = n by omega]
      rw [ei] at h
      exact ite_of h Iff.rfl

/-- **C69 fails.** The first day of the year 11763000 is far outside the range of dates. In the release profile the text is
accepted as another day, in the debug profile reading it panics. -/
theorem C69_violated :
    (⟨b!"11763000", 45, b!"001"⟩ : YearDayText).Ok .ymd ∧
    (∃ k, (⟨b!"11763000", 45, b!"001"⟩ : YearDayText).number false = some k ∧ ¬ DateRange k ∧ k ≠ 649747) ∧
    Date.tryFromStr .release .date Caches.new b!"11763000-001" .ymd = .ok ⟨649747⟩ ∧
    Date.tryFromStr .debug .date Caches.new b!"11763000-001" .ymd = .panic := by
  refine ⟨⟨Or.inr rfl, by decide, Or.inl ⟨Or.inl rfl, by decide⟩⟩, ⟨dayNumber ⟨11763000, 1, 1⟩, ?_, ?_, ?_⟩, ?_, ?_⟩ <;>
    decide +kernel

example : (⟨b!"1999", 45, b!"008"⟩ : YearDayText).Ok .mdy ∧
    (⟨b!"1999", 45, b!"008"⟩ : YearDayText).number false = some (dayNumber ⟨1999, 1, 8⟩) ∧
    Date.tryFromStr .debug .date Caches.new b!"1999-008" .mdy = .ok ⟨dayNumber ⟨1999, 1, 8⟩⟩ ∧
    Date.tryFromStr .debug .date Caches.new b!"2024.366" .mdy = .ok ⟨dayNumber ⟨2024, 12, 31⟩⟩ ∧
    Date.tryFromStr .debug .date Caches.new b!"1999 366" .mdy = .ok ⟨dayNumber ⟨2000, 1, 1⟩⟩ ∧
    Date.tryFromStr .debug .date Caches.new b!"45/060 BC" .ymd = .ok ⟨dayNumber ⟨-44, 2, 29⟩⟩ ∧
    Date.tryFromStr .debug .date Caches.new b!"1999-367" .mdy = .err .invalid :=
  ⟨⟨Or.inl (by decide), by decide, Or.inl ⟨Or.inl rfl, by decide⟩⟩, by decide +kernel, by decide +kernel,
    by decide +kernel, by decide +kernel, by decide +kernel, by decide +kernel⟩
example : Timestamp.tryFromStr .debug .date Caches.new b!"1999-008T04:05:06 PM" (-1) .dmy =
    .ok ⟨instant ⟨1999, 1, 8⟩ ⟨16, 5, 6, 0⟩⟩ ∧
    Timestamp.tryFromStr .debug .date Caches.new b!"99.008 04:05" (-1) .ymd =
    .ok ⟨instant ⟨1999, 1, 8⟩ ⟨4, 5, 0, 0⟩⟩ := by decide +kernel

/-- Three characters are enough, digits or not: the second number of `2024 1.5` is no number of a day, but it is taken for
day 1 of the year, and for timestamps the fraction becomes half a second. -/
theorem C69_point_violated :
    ¬ Digits b!"1.5" ∧
    (∀ p order, Date.tryFromStr p .date Caches.new b!"2024 1.5" order = .ok ⟨dayNumber ⟨2024, 1, 1⟩⟩) ∧
    (∀ p order, Timestamp.tryFromStr p .date Caches.new b!"2024 1.5" (-1) order =
      .ok ⟨instant ⟨2024, 1, 1⟩ ⟨0, 0, 0, 500000⟩⟩) := by
  refine ⟨by unfold Digits; decide, ?_, ?_⟩ <;>
    (intro p o; cases p <;> cases o <;> decide +kernel)

end Props
