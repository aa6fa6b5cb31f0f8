import Verif.Lemmas.LabelScan
import Verif.Props.Forms

/-!
# Property C62: labelled numbers and Julian day numbers

A day may be written with the labels `y`, `m` and `d` before its numbers, in any order, and as a Julian day number after
`j`, `jd` or `julian`. `c` is the state of the thread's keyword caches, `u` the uninitialised type of a lone sign.
-/

namespace Props
open Pg Spec

/-- **C62, dates.** Numbers with the labels year, month and day, in any order, are the day with that year (as written, not
completed to a century), month and day; with ` BC` the year is before the common era. -/
theorem C62_date (p : Profile) (u : TokenField) (c : Caches) (hc : c.Ok) (order : DateOrder) (D : LabelText) (hD : D.Ok)
    (bc : Bool) :
    match D.day bc with
    | none => (Date.tryFromStr p u c (D.bytes ++ bcMark bc) order).IsErr
    | some day =>
      if day.InDateRange then Date.tryFromStr p u c (D.bytes ++ bcMark bc) order = .ok ⟨dayNumber day⟩
      else (Date.tryFromStr p u c (D.bytes ++ bcMark bc) order).IsErr := by
  obtain ⟨hn, hl⟩ := label_len hD
  have h := date_anyDate (p := p) (order := order) (clk := none) (mer := none) (bc := bc) (u := u)
    (text := D.bytes ++ bcMark bc) (reads_label hD bc) hc trivial
    (scan_day (clk := none) (mer := none) (t := []) u hn hl (by simp [labelFields, partFields])
      (fun hr hs => scans_label u hD hr hs) trivial rfl bc (by simp [clkBytes]))
  cases hd : D.day bc with
  | none => rw [hd] at h; exact h
  | some day =>
    rw [hd] at h
    simp only [hourOf, ClkAccepted, true_and] at h ⊢
    exact ite_of h (inDateRange_iff (labelDay_some hd).1)

/-- **C62, timestamps.** The same with a clock time as in C59. -/
theorem C62_timestamp (p : Profile) (u : TokenField) (c : Caches) (hc : c.Ok) (order : DateOrder) (D : LabelText)
    (hD : D.Ok) (y : Nat) (hy : y = 32 ∨ y = 84) (T : ClockText) (hT : T.Ok) (mer : Option Bool) (t : Bytes)
    (ht : MeridiemText mer t) (bc : Bool) (text : Bytes) (he : text = D.bytes ++ [y] ++ T.bytes ++ t ++ bcMark bc) :
    ∃ us, NearestMicros T.frac us ∧
      match D.day bc, hourOf mer T.h with
      | some day, some k =>
        if (T.colons = true → ClockInput T.h T.m T.s us) ∧ TsRange (instant day ⟨k, T.m, T.s, us⟩) then
          Timestamp.tryFromStr p u c text (-1) order = .ok ⟨instant day ⟨k, T.m, T.s, us⟩⟩
        else (Timestamp.tryFromStr p u c text (-1) order).IsErr
      | _, _ => (Timestamp.tryFromStr p u c text (-1) order).IsErr := by
  obtain ⟨sep, hsep⟩ : ∃ sep : DateSep, sep.bytes = [y] := by
    rcases hy with rfl | rfl
    · exact ⟨.space, rfl⟩
    · exact ⟨.letterT, rfl⟩
  refine ⟨clockUs T, clockUs_nearest hT, ?_⟩
  obtain ⟨hn, hl⟩ := label_len hD
  have h := timestamp_anyDate (p := p) (order := order) (clk := some (sep, T)) (mer := mer) (bc := bc) (u := u)
    (text := text) (reads_label hD bc) hc hT
    (scan_day (clk := some (sep, T)) u hn hl (by simp [labelFields, partFields])
      (fun hr hs => scans_label u hD hr hs) hT ht bc (by rw [he, clkBytes, hsep]; simp))
  cases hd : D.day bc with
  | none => rw [hd] at h; exact h
  | some day =>
    cases hk : hourOf mer T.h with
    | none =>
      rw [hd] at h
      simp only [clkH, hk] at h
      exact h
    | some k =>
      rw [hd] at h
      simp only [clkH, hk] at h
      exact ite_of h Iff.rfl

/-- **C62, Julian dates.** `J` and a number is the day with that Julian day number, which is 2451545 for 2000-01-01. A mark
` BC` changes nothing. -/
theorem C62_julian_date (p : Profile) (u : TokenField) (c : Caches) (hc : c.Ok) (order : DateOrder) (J : JulianText)
    (hJ : J.Ok) (bc : Bool) :
    if DateRange ((value J.digits : Int) - 2451545) then
      Date.tryFromStr p u c (J.bytes ++ bcMark bc) order = .ok ⟨(value J.digits : Int) - 2451545⟩
    else (Date.tryFromStr p u c (J.bytes ++ bcMark bc) order).IsErr := by
  obtain ⟨hn, hl⟩ := julian_len hJ
  have h := date_anyDate (p := p) (order := order) (clk := none) (mer := none) (bc := bc) (u := u)
    (text := J.bytes ++ bcMark bc) (reads_julian hJ bc) hc trivial
    (scan_day (clk := none) (mer := none) (t := []) u hn hl (by simp [julianFields])
      (fun hr hs => scans_julian u hJ hr hs) trivial rfl bc (by simp [clkBytes]))
  by_cases hv : value J.digits ≤ 2147483647
  · have hd : julianDay (value J.digits) bc = some (julianYmd (value J.digits)) := if_pos hv
    rw [hd] at h
    simp only [hourOf, ClkAccepted, true_and, julianYmd_number] at h
    exact h
  · have hd : julianDay (value J.digits) bc = none := if_neg hv
    rw [hd] at h
    rw [if_neg]
    · exact h
    · have : dayNumber lastDay = 2145031948 := by decide
      unfold DateRange; omega

/-- **C62, Julian timestamps.** The same with a clock time as in C59. -/
theorem C62_julian_timestamp (p : Profile) (u : TokenField) (c : Caches) (hc : c.Ok) (order : DateOrder) (J : JulianText)
    (hJ : J.Ok) (y : Nat) (hy : y = 32 ∨ y = 84) (T : ClockText) (hT : T.Ok) (mer : Option Bool) (t : Bytes)
    (ht : MeridiemText mer t) (bc : Bool) (text : Bytes) (he : text = J.bytes ++ [y] ++ T.bytes ++ t ++ bcMark bc) :
    ∃ us day, NearestMicros T.frac us ∧ day.Real ∧ dayNumber day = (value J.digits : Int) - 2451545 ∧
      match hourOf mer T.h with
      | some k =>
        if (T.colons = true → ClockInput T.h T.m T.s us) ∧ TsRange (instant day ⟨k, T.m, T.s, us⟩) then
          Timestamp.tryFromStr p u c text (-1) order = .ok ⟨instant day ⟨k, T.m, T.s, us⟩⟩
        else (Timestamp.tryFromStr p u c text (-1) order).IsErr
      | none => (Timestamp.tryFromStr p u c text (-1) order).IsErr := by
  obtain ⟨sep, hsep⟩ : ∃ sep : DateSep, sep.bytes = [y] := by
    rcases hy with rfl | rfl
    · exact ⟨.space, rfl⟩
    · exact ⟨.letterT, rfl⟩
  refine ⟨clockUs T, julianYmd (value J.digits), clockUs_nearest hT, julianYmd_real _, julianYmd_number _, ?_⟩
  obtain ⟨hn, hl⟩ := julian_len hJ
  have h := timestamp_anyDate (p := p) (order := order) (clk := some (sep, T)) (mer := mer) (bc := bc) (u := u)
    (text := text) (reads_julian hJ bc) hc hT
    (scan_day (clk := some (sep, T)) u hn hl (by simp [julianFields])
      (fun hr hs => scans_julian u hJ hr hs) hT ht bc (by rw [he, clkBytes, hsep]; simp))
  by_cases hv : value J.digits ≤ 2147483647
  · have hd : julianDay (value J.digits) bc = some (julianYmd (value J.digits)) := if_pos hv
    rw [hd] at h
    cases hk : hourOf mer T.h with
    | none =>
      simp only [clkH, hk] at h
      exact h
    | some k =>
      simp only [clkH, hk] at h
      exact ite_of h Iff.rfl
  · have hd : julianDay (value J.digits) bc = none := if_neg hv
    rw [hd] at h
    cases hk : hourOf mer T.h with
    | none => exact h
    | some k =>
      simp only
      rw [if_neg]
      · exact h
      · rintro ⟨ha, hts⟩
        obtain ⟨b1, b2, b3, b4, b5⟩ := clk_bounds (clk := some (sep, T)) hT ha hk
        have hm : 0 ≤ (⟨k, T.m, T.s, clockUs T⟩ : Clock).micros := by
          have : 0 ≤ clockUs T := b4
          unfold Clock.micros
          simp only
          omega
        have := julianYmd_number (value J.digits)
        have : dayNumber lastTsDay.next = 106751983 := by decide
        have : (⟨0, 0, 0, 0⟩ : Clock).micros = 0 := rfl
        unfold TsRange instant dayMicros at hts
        omega

example : (⟨⟨.day, b!"D", [], b!"17"⟩, [], ⟨.month, b!"m", [32], b!"05"⟩, [44, 32], ⟨.year, b!"y", [], b!"99"⟩⟩ :
    LabelText).Ok ∧
    (⟨⟨.day, b!"D", [], b!"17"⟩, [], ⟨.month, b!"m", [32], b!"05"⟩, [44, 32], ⟨.year, b!"y", [], b!"99"⟩⟩ :
    LabelText).day true = some ⟨-98, 5, 17⟩ ∧
    Date.tryFromStr .debug .date Caches.new b!"D17m 05, y99 BC" .mdy = .ok ⟨dayNumber ⟨-98, 5, 17⟩⟩ := by
  refine ⟨⟨⟨by unfold SameButCase; decide, Or.inl rfl, by decide⟩, ⟨by unfold SameButCase; decide, Or.inr (Or.inl rfl),
    by decide⟩, ⟨by unfold SameButCase; decide, Or.inl rfl, by decide⟩, Or.inl rfl, Or.inr (Or.inr (Or.inr rfl)),
    by decide⟩, by decide +kernel, by decide +kernel⟩
example : Timestamp.tryFromStr .debug .date Caches.new b!"y2024m5d17T04:05:06 PM" (-1) .dmy =
    .ok ⟨instant ⟨2024, 5, 17⟩ ⟨16, 5, 6, 0⟩⟩ ∧
    Date.tryFromStr .debug .date Caches.new b!"y24m5d17" .dmy = .ok ⟨dayNumber ⟨24, 5, 17⟩⟩ ∧
    Date.tryFromStr .debug .date Caches.new b!"y2024m5d32" .dmy = .err .overflow ∧
    Date.tryFromStr .debug .date Caches.new b!"y0m5d3" .dmy = .err .overflow := by decide +kernel
example : (⟨b!"J", [], b!"2451187"⟩ : JulianText).Ok ∧
    Date.tryFromStr .debug .date Caches.new b!"J2451187 BC" .mdy = .ok ⟨dayNumber ⟨1999, 1, 8⟩⟩ ∧
    Timestamp.tryFromStr .debug .date Caches.new b!"julian 2451187 04:05" (-1) .mdy =
      .ok ⟨instant ⟨1999, 1, 8⟩ ⟨4, 5, 0, 0⟩⟩ ∧
    Date.tryFromStr .debug .date Caches.new b!"J2147483647" .mdy = .err .invalid :=
  ⟨⟨⟨b!"j", by decide, by unfold SameButCase; decide⟩, Or.inl rfl, by decide⟩, by decide +kernel, by decide +kernel,
    by decide +kernel⟩

end Props
